import Verif.Core.Buf
import Verif.Core.Cursor
import Verif.Model.Grid
/-!
# Cartesian grids

Models `opm/core/grid/cart_grid.c` and `allocate_grid` of `opm/core/grid/grid.c`.  Coordinates are rational numbers, sizes fit in an
`int`, and allocation succeeds.  Not modelled: the geometry of layered grids (`depthz`), apart from the node coordinates.
-/

namespace Opm.Cart

/-- `struct UnstructuredGrid`.  Models: `opm/core/grid.h:99-235` (without `global_cell`). -/
structure Grid where
  ndims : Nat
  nc : Nat
  nf : Nat
  nn : Nat
  nodeCoord : List Rat
  faceNodes : List Nat
  faceNodepos : List Nat
  faceCells : List Int
  faceCentroids : List Rat
  faceNormals : List Rat
  faceAreas : List Rat
  cellFaces : List Nat
  cellFacetag : List Nat
  cellFacepos : List Nat
  cellCentroids : List Rat
  cellVolumes : List Rat
  cartdims : Nat × Nat × Nat
  deriving Repr, DecidableEq

/-- Contents of freshly allocated memory. -/
structure Junk where
  nat : Nat → Nat
  int : Nat → Int
  rat : Nat → Rat

/-- `allocate_grid`.  Models: `grid.c:71-149`. -/
def allocateGrid (junk : Junk) (ndims nc nf nfn ncf nn : Nat) : Grid :=
  { ndims := ndims, nc := nc, nf := nf, nn := nn
    nodeCoord := realloc junk.rat [] (nn * ndims)
    faceNodes := realloc junk.nat [] nfn
    faceNodepos := realloc junk.nat [] (nf + 1)
    faceCells := realloc junk.int [] (2 * nf)
    faceCentroids := realloc junk.rat [] (nf * ndims)
    faceNormals := realloc junk.rat [] (nf * ndims)
    faceAreas := realloc junk.rat [] nf
    cellFaces := realloc junk.nat [] ncf
    cellFacetag := realloc junk.nat [] ncf
    cellFacepos := realloc junk.nat [] (nc + 1)
    cellCentroids := realloc junk.rat [] (nc * ndims)
    cellVolumes := realloc junk.rat [] nc
    cartdims := (0, 0, 0) }

/-- `allocate_cart_grid`.  Models: `cart_grid.c:172-185`. -/
def allocateCartGrid (junk : Junk) (ndims nc nf nn : Nat) : Grid :=
  allocateGrid junk ndims nc nf (nf * (2 * (ndims - 1))) (nc * (2 * ndims)) nn

/-- `allocate_cart_grid_3d`.  Models: `cart_grid.c:188-224`. -/
def allocateCartGrid3d (junk : Junk) (nx ny nz : Nat) : Grid :=
  { allocateCartGrid junk 3 (nx * ny * nz) ((nx + 1) * ny * nz + nx * (ny + 1) * nz + nx * ny * (nz + 1)) ((nx + 1) * (ny + 1) * (nz + 1)) with
    cartdims := (nx, ny, nz) }

/-- `allocate_cart_grid_2d`.  Models: `cart_grid.c:504-539`. -/
def allocateCartGrid2d (junk : Junk) (nx ny : Nat) : Grid :=
  { allocateCartGrid junk 2 (nx * ny) ((nx + 1) * ny + nx * (ny + 1)) ((nx + 1) * (ny + 1)) with cartdims := (nx, ny, 1) }

/-- The pointers `cfaces`, `cfacepos`. -/
structure CellCur where
  faces : Cur Nat
  pos : Cur Nat

/-- One cell: its faces, then the end of its row. -/
def CellCur.emit (s : CellCur) (d : Nat) (faces : List Nat) : M CellCur := do
  let f ← s.faces.puts faces
  let p ← s.pos.bump d
  .ok ⟨f, p⟩

/-- The pointers `fnodes`, `fnodepos`, `fcells`. -/
structure FaceCur where
  nodes : Cur Nat
  pos : Cur Nat
  cells : Cur Int

/-- One face: its nodes, the end of its row, and its two neighbours. -/
def FaceCur.emit (s : FaceCur) (d : Nat) (nodes : List Nat) (cells : List Int) : M FaceCur := do
  let n ← s.nodes.puts nodes
  let p ← s.pos.bump d
  let c ← s.cells.puts cells
  .ok ⟨n, p, c⟩

/-- The cells of `fill_cart_topology_3d`.  Models: `cart_grid.c:251-265`. -/
def cellLoop3 (nx ny nz : Nat) (s : CellCur) : M CellCur :=
  let Nx := nx + 1
  let Ny := ny + 1
  let nxf := Nx * ny * nz
  let nyf := nx * Ny * nz
  loop nz (fun k => loop ny (fun j => loop nx (fun i s =>
    s.emit 6
      [i + Nx * (j + ny * k), i + 1 + Nx * (j + ny * k),
       i + nx * (j + Ny * k) + nxf, i + nx * (j + 1 + Ny * k) + nxf,
       i + nx * (j + ny * k) + nxf + nyf, i + nx * (j + ny * (k + 1)) + nxf + nyf]))) s

/-- Face tags of `fill_cart_topology_3d`.  Models: `cart_grid.c:267-271`. -/
def tagLoop3 (nx ny nz : Nat) (tag : List Nat) : M (List Nat) :=
  loop (nx * ny * nz) (fun k => loop 6 (fun i tag => wr tag (k * 6 + i) i)) tag

/-- Faces with x-normal.  Models: `cart_grid.c:278-302`. -/
def xFaceLoop3 (nx ny nz : Nat) (s : FaceCur) : M FaceCur :=
  let Nx := nx + 1
  let Ny := ny + 1
  loop nz (fun k => loop ny (fun j => loop (nx + 1) (fun i s =>
    s.emit 4
      [i + Nx * (j + Ny * k), i + Nx * (j + 1 + Ny * k), i + Nx * (j + 1 + Ny * (k + 1)), i + Nx * (j + Ny * (k + 1))]
      (if i = 0 then [-1, (i + nx * (j + ny * k) : Nat)]
       else if i = nx then [(i - 1 + nx * (j + ny * k) : Nat), -1]
       else [(i - 1 + nx * (j + ny * k) : Nat), (i + nx * (j + ny * k) : Nat)])))) s

/-- Faces with y-normal.  Models: `cart_grid.c:303-327`. -/
def yFaceLoop3 (nx ny nz : Nat) (s : FaceCur) : M FaceCur :=
  let Nx := nx + 1
  let Ny := ny + 1
  loop nz (fun k => loop (ny + 1) (fun j => loop nx (fun i s =>
    s.emit 4
      [i + Nx * (j + Ny * k), i + Nx * (j + Ny * (k + 1)), i + 1 + Nx * (j + Ny * (k + 1)), i + 1 + Nx * (j + Ny * k)]
      (if j = 0 then [-1, (i + nx * (j + ny * k) : Nat)]
       else if j = ny then [(i + nx * (j - 1 + ny * k) : Nat), -1]
       else [(i + nx * (j - 1 + ny * k) : Nat), (i + nx * (j + ny * k) : Nat)])))) s

/-- Faces with z-normal.  Models: `cart_grid.c:328-352`. -/
def zFaceLoop3 (nx ny nz : Nat) (s : FaceCur) : M FaceCur :=
  let Nx := nx + 1
  let Ny := ny + 1
  loop (nz + 1) (fun k => loop ny (fun j => loop nx (fun i s =>
    s.emit 4
      [i + Nx * (j + Ny * k), i + 1 + Nx * (j + Ny * k), i + 1 + Nx * (j + 1 + Ny * k), i + Nx * (j + 1 + Ny * k)]
      (if k = 0 then [-1, (i + nx * (j + ny * k) : Nat)]
       else if k = nz then [(i + nx * (j + ny * (k - 1)) : Nat), -1]
       else [(i + nx * (j + ny * (k - 1)) : Nat), (i + nx * (j + ny * k) : Nat)])))) s

/-- `fill_cart_topology_3d`.  Models: `cart_grid.c:228-353`. -/
def fillTopology3d (G : Grid) : M Grid := do
  let (nx, ny, nz) := G.cartdims
  let cp ← wr G.cellFacepos 0 0
  let c ← cellLoop3 nx ny nz ⟨⟨G.cellFaces, 0⟩, ⟨cp, 0⟩⟩
  let tag ← tagLoop3 nx ny nz G.cellFacetag
  let fp ← wr G.faceNodepos 0 0
  let s ← xFaceLoop3 nx ny nz ⟨⟨G.faceNodes, 0⟩, ⟨fp, 0⟩, ⟨G.faceCells, 0⟩⟩
  let s ← yFaceLoop3 nx ny nz s
  let s ← zFaceLoop3 nx ny nz s
  .ok { G with cellFaces := c.faces.buf, cellFacepos := c.pos.buf, cellFacetag := tag, faceNodes := s.nodes.buf,
               faceNodepos := s.pos.buf, faceCells := s.cells.buf }

/-- The pointers `ccentroids`, `cvolumes`. -/
structure CellGeoCur where
  cent : Cur Rat
  vol : Cur Rat

/-- The pointers `fnormals`, `fcentroids`, `fareas`. -/
structure FaceGeoCur where
  nrm : Cur Rat
  cent : Cur Rat
  area : Cur Rat

/-- The writes for one face. -/
def FaceGeoCur.emit (s : FaceGeoCur) (nrm cent : List Rat) (area : Rat) : M FaceGeoCur := do
  let n ← s.nrm.puts nrm
  let c ← s.cent.puts cent
  let a ← s.area.put area
  .ok ⟨n, c, a⟩

/-- The writes for one cell. -/
def CellGeoCur.emit (s : CellGeoCur) (cent : List Rat) (vol : Rat) : M CellGeoCur := do
  let c ← s.cent.puts cent
  let v ← s.vol.put vol
  .ok ⟨c, v⟩

/-- Cell centroids and volumes.  Models: `cart_grid.c:377-391`. -/
def cellGeoLoop3 (nx ny nz : Nat) (x y z : List Rat) (s : CellGeoCur) : M CellGeoCur :=
  loop nz (fun k => loop ny (fun j => loop nx (fun i s => do
    let x0 ← rd x i
    let x1 ← rd x (i + 1)
    let y0 ← rd y j
    let y1 ← rd y (j + 1)
    let z0 ← rd z k
    let z1 ← rd z (k + 1)
    s.emit [(x0 + x1) / 2, (y0 + y1) / 2, (z0 + z1) / 2] ((x1 - x0) * (y1 - y0) * (z1 - z0))))) s

/-- Geometry of the faces with x-normal.  Models: `cart_grid.c:398-416`. -/
def xFaceGeoLoop3 (nx ny nz : Nat) (x y z : List Rat) (s : FaceGeoCur) : M FaceGeoCur :=
  loop nz (fun k => loop ny (fun j => loop (nx + 1) (fun i s => do
    let x0 ← rd x i
    let y0 ← rd y j
    let y1 ← rd y (j + 1)
    let z0 ← rd z k
    let z1 ← rd z (k + 1)
    s.emit [(y1 - y0) * (z1 - z0), 0, 0] [x0, (y0 + y1) / 2, (z0 + z1) / 2] ((y1 - y0) * (z1 - z0))))) s

/-- Geometry of the faces with y-normal.  Models: `cart_grid.c:417-435`. -/
def yFaceGeoLoop3 (nx ny nz : Nat) (x y z : List Rat) (s : FaceGeoCur) : M FaceGeoCur :=
  loop nz (fun k => loop (ny + 1) (fun j => loop nx (fun i s => do
    let x0 ← rd x i
    let x1 ← rd x (i + 1)
    let y0 ← rd y j
    let z0 ← rd z k
    let z1 ← rd z (k + 1)
    s.emit [0, (x1 - x0) * (z1 - z0), 0] [(x0 + x1) / 2, y0, (z0 + z1) / 2] ((x1 - x0) * (z1 - z0))))) s

/-- Geometry of the faces with z-normal.  Models: `cart_grid.c:436-454`. -/
def zFaceGeoLoop3 (nx ny nz : Nat) (x y z : List Rat) (s : FaceGeoCur) : M FaceGeoCur :=
  loop (nz + 1) (fun k => loop ny (fun j => loop nx (fun i s => do
    let x0 ← rd x i
    let x1 ← rd x (i + 1)
    let y0 ← rd y j
    let y1 ← rd y (j + 1)
    let z0 ← rd z k
    s.emit [0, 0, (x1 - x0) * (y1 - y0)] [(x0 + x1) / 2, (y0 + y1) / 2, z0] ((x1 - x0) * (y1 - y0))))) s

/-- Node coordinates.  Models: `cart_grid.c:456-465`. -/
def nodeLoop3 (nx ny nz : Nat) (x y z : List Rat) (s : Cur Rat) : M (Cur Rat) :=
  loop (nz + 1) (fun k => loop (ny + 1) (fun j => loop (nx + 1) (fun i s => do
    let x0 ← rd x i
    let y0 ← rd y j
    let z0 ← rd z k
    s.puts [x0, y0, z0]))) s

/-- `fill_cart_geometry_3d`.  Models: `cart_grid.c:357-466`. -/
def fillGeometry3d (G : Grid) (x y z : List Rat) : M Grid := do
  let (nx, ny, nz) := G.cartdims
  let c ← cellGeoLoop3 nx ny nz x y z ⟨⟨G.cellCentroids, 0⟩, ⟨G.cellVolumes, 0⟩⟩
  let f ← xFaceGeoLoop3 nx ny nz x y z ⟨⟨G.faceNormals, 0⟩, ⟨G.faceCentroids, 0⟩, ⟨G.faceAreas, 0⟩⟩
  let f ← yFaceGeoLoop3 nx ny nz x y z f
  let f ← zFaceGeoLoop3 nx ny nz x y z f
  let n ← nodeLoop3 nx ny nz x y z ⟨G.nodeCoord, 0⟩
  .ok { G with cellCentroids := c.cent.buf, cellVolumes := c.vol.buf, faceNormals := f.nrm.buf, faceCentroids := f.cent.buf,
               faceAreas := f.area.buf, nodeCoord := n.buf }

/-- `create_grid_tensor3d` with `depthz == NULL`.  Models: `cart_grid.c:139-165`. -/
def createTensor3d (junk : Junk) (nx ny nz : Nat) (x y z : List Rat) : M Grid := do
  let G ← fillTopology3d (allocateCartGrid3d junk nx ny nz)
  fillGeometry3d G x y z

/-- The arrays of equidistant coordinates.  Models: `cart_grid.c:73-75, 108-109`. -/
def equidistant (n : Nat) (d : Rat) : List Rat := (List.range (n + 1)).map (fun (i : Nat) => (i : Rat) * d)

/-- `create_grid_hexa3d`.  Models: `cart_grid.c:58-84`. -/
def createHexa3d (junk : Junk) (nx ny nz : Nat) (dx dy dz : Rat) : M Grid :=
  createTensor3d junk nx ny nz (equidistant nx dx) (equidistant ny dy) (equidistant nz dz)

/-- `create_grid_cart3d`.  Models: `cart_grid.c:52-56`. -/
def createCart3d (junk : Junk) (nx ny nz : Nat) : M Grid := createHexa3d junk nx ny nz 1 1 1

/-! ### Two dimensions -/

/-- The cells of `fill_cart_topology_2d`.  Models: `cart_grid.c:562-572`. -/
def cellLoop2 (nx ny : Nat) (s : CellCur) : M CellCur :=
  let Nx := nx + 1
  let nxf := Nx * ny
  loop ny (fun j => loop nx (fun i s =>
    s.emit 4 [i + Nx * j, i + nx * j + nxf, i + 1 + Nx * j, i + nx * (j + 1) + nxf])) s

/-- Face tags of `fill_cart_topology_2d`.  Models: `cart_grid.c:574-579`. -/
def tagLoop2 (nx ny : Nat) (tag : List Nat) : M (List Nat) :=
  loop (nx * ny) (fun j tag => do
    let tag ← wr tag (j * 4 + 0) 0
    let tag ← wr tag (j * 4 + 1) 2
    let tag ← wr tag (j * 4 + 2) 1
    wr tag (j * 4 + 3) 3) tag

/-- Faces with x-normal.  Models: `cart_grid.c:587-607`. -/
def xFaceLoop2 (nx ny : Nat) (s : FaceCur) : M FaceCur :=
  let Nx := nx + 1
  loop ny (fun j => loop (nx + 1) (fun i s =>
    s.emit 2 [i + Nx * j, i + Nx * (j + 1)]
      (if i = 0 then [-1, (i + nx * j : Nat)]
       else if i = nx then [(i - 1 + nx * j : Nat), -1]
       else [(i - 1 + nx * j : Nat), (i + nx * j : Nat)]))) s

/-- Faces with y-normal.  Models: `cart_grid.c:609-629`. -/
def yFaceLoop2 (nx ny : Nat) (s : FaceCur) : M FaceCur :=
  let Nx := nx + 1
  loop (ny + 1) (fun j => loop nx (fun i s =>
    s.emit 2 [i + 1 + Nx * j, i + Nx * j]
      (if j = 0 then [-1, (i + nx * j : Nat)]
       else if j = ny then [(i + nx * (j - 1) : Nat), -1]
       else [(i + nx * (j - 1) : Nat), (i + nx * j : Nat)]))) s

/-- `fill_cart_topology_2d`.  Models: `cart_grid.c:543-630`. -/
def fillTopology2d (G : Grid) : M Grid := do
  let (nx, ny, _) := G.cartdims
  let cp ← wr G.cellFacepos 0 0
  let c ← cellLoop2 nx ny ⟨⟨G.cellFaces, 0⟩, ⟨cp, 0⟩⟩
  let tag ← tagLoop2 nx ny G.cellFacetag
  let fp ← wr G.faceNodepos 0 0
  let s ← xFaceLoop2 nx ny ⟨⟨G.faceNodes, 0⟩, ⟨fp, 0⟩, ⟨G.faceCells, 0⟩⟩
  let s ← yFaceLoop2 nx ny s
  .ok { G with cellFaces := c.faces.buf, cellFacepos := c.pos.buf, cellFacetag := tag, faceNodes := s.nodes.buf,
               faceNodepos := s.pos.buf, faceCells := s.cells.buf }

/-- `fill_cart_geometry_2d`, cells.  Models: `cart_grid.c:653-663`. -/
def cellGeoLoop2 (nx ny : Nat) (x y : List Rat) (s : CellGeoCur) : M CellGeoCur :=
  loop ny (fun j => loop nx (fun i s => do
    let x0 ← rd x i
    let x1 ← rd x (i + 1)
    let y0 ← rd y j
    let y1 ← rd y (j + 1)
    s.emit [(x0 + x1) / 2, (y0 + y1) / 2] ((x1 - x0) * (y1 - y0)))) s

/-- Geometry of the faces with x-normal.  Models: `cart_grid.c:671-684`. -/
def xFaceGeoLoop2 (nx ny : Nat) (x y : List Rat) (s : FaceGeoCur) : M FaceGeoCur :=
  loop ny (fun j => loop (nx + 1) (fun i s => do
    let x0 ← rd x i
    let y0 ← rd y j
    let y1 ← rd y (j + 1)
    s.emit [y1 - y0, 0] [x0, (y0 + y1) / 2] (y1 - y0))) s

/-- Geometry of the faces with y-normal.  Models: `cart_grid.c:686-699`. -/
def yFaceGeoLoop2 (nx ny : Nat) (x y : List Rat) (s : FaceGeoCur) : M FaceGeoCur :=
  loop (ny + 1) (fun j => loop nx (fun i s => do
    let x0 ← rd x i
    let x1 ← rd x (i + 1)
    let y0 ← rd y j
    s.emit [0, x1 - x0] [(x0 + x1) / 2, y0] (x1 - x0))) s

/-- Node coordinates.  Models: `cart_grid.c:701-707`. -/
def nodeLoop2 (nx ny : Nat) (x y : List Rat) (s : Cur Rat) : M (Cur Rat) :=
  loop (ny + 1) (fun j => loop (nx + 1) (fun i s => do
    let x0 ← rd x i
    let y0 ← rd y j
    s.puts [x0, y0])) s

/-- `fill_cart_geometry_2d`.  Models: `cart_grid.c:634-708`. -/
def fillGeometry2d (G : Grid) (x y : List Rat) : M Grid := do
  let (nx, ny, _) := G.cartdims
  let c ← cellGeoLoop2 nx ny x y ⟨⟨G.cellCentroids, 0⟩, ⟨G.cellVolumes, 0⟩⟩
  let f ← xFaceGeoLoop2 nx ny x y ⟨⟨G.faceNormals, 0⟩, ⟨G.faceCentroids, 0⟩, ⟨G.faceAreas, 0⟩⟩
  let f ← yFaceGeoLoop2 nx ny x y f
  let n ← nodeLoop2 nx ny x y ⟨G.nodeCoord, 0⟩
  .ok { G with cellCentroids := c.cent.buf, cellVolumes := c.vol.buf, faceNormals := f.nrm.buf, faceCentroids := f.cent.buf,
               faceAreas := f.area.buf, nodeCoord := n.buf }

/-- `create_grid_tensor2d`.  Models: `cart_grid.c:121-135`. -/
def createTensor2d (junk : Junk) (nx ny : Nat) (x y : List Rat) : M Grid := do
  let G ← fillTopology2d (allocateCartGrid2d junk nx ny)
  fillGeometry2d G x y

/-- `create_grid_cart2d`.  Models: `cart_grid.c:94-117`. -/
def createCart2d (junk : Junk) (nx ny : Nat) (dx dy : Rat) : M Grid := createTensor2d junk nx ny (equidistant nx dx) (equidistant ny dy)

/-- Node coordinates of a layered grid: the depth of the pillar is added to the vertical coordinate.
Models: `cart_grid.c:485-497` (the subsequent `compute_geometry` is not part of it). -/
def layeredNodes (nx ny nz : Nat) (x y z depthz : List Rat) (s : Cur Rat) : M (Cur Rat) :=
  loop (nz + 1) (fun k s => do
    let r ← loop (ny + 1) (fun j => loop (nx + 1) (fun i (r : Cur Rat × Nat) => do
      let x0 ← rd x i
      let y0 ← rd y j
      let z0 ← rd z k
      let d ← rd depthz r.2
      let c ← r.1.puts [x0, y0, z0 + d]
      .ok (c, r.2 + 1))) (s, 0)
    .ok r.1) s

/-- The topological part of the grid. -/
def Grid.topo (G : Grid) : GridTopo := ⟨G.nc, G.nf, G.faceCells, G.cellFacepos, G.cellFaces⟩

end Opm.Cart
