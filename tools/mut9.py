import json
M=[]
def v(id,old,new,d,edit,claim,**k):
    M.append(dict(id=id,file="Verif/Vtk/Model.lean",old=old,new=new,edit=edit,claim=claim,target="Verif.Vtk.GridTheorems",**{"def":d},**k))
def h(id,old,new,d,edit,claim,target="Verif.Swage.HighOrderNegation",**k):
    M.append(dict(id=id,file="Verif/Swage/HighOrder.lean",old=old,new=new,edit=edit,claim=claim,target=target,**{"def":d},**k))
v("vt01","if reverse then map.set (V p I J K)","if !reverse then map.set (V p I J K)","makeMap","reverse flag inverted","C51 grid positions / round trip of ids")
v("vt02","[UInt64.ofNat I, UInt64.ofNat J, UInt64.ofNat K]).toNat","[UInt64.ofNat K, UInt64.ofNat J, UInt64.ofNat I]).toNat","swageId","digits in reverse order","C51 vertex (I,J,K) at VTK index")
v("vt03","loopM (p + 1) (fun I => loopM (p + 1) fun J => loopM (p + 1) fun K map","loopM (p + 1) (fun I => loopM (p + 1) fun J => loopM p fun K map","makeMap","last layer of vertices not mapped","C51 map is a bijection")
v("vt04","let i ← map.get v\n  let hex ← s.hex.set i g","let hex ← s.hex.set v g","writeVert","map not applied on writing","C51 cell connectivity in VTK order")
v("vt05","let y ← m.coords.get (g * 3 + 1)\n  let z ← m.coords.get (g * 3 + 2)","let y ← m.coords.get (g * 3 + 2)\n  let z ← m.coords.get (g * 3 + 1)","writeVert","y and z swapped on writing","C51 point coordinates")
v("vt06","let q ← solution.get (e * cols + v)","let q ← solution.get (e * cols + i)","writeVert","solution read in VTK order","C51 solution values")
v("vt07","pure ⟨s.pts, s.sol, s.hex, s.cells ++ [s.hex]⟩)","pure ⟨s.pts, s.sol, s.hex, [s.hex]⟩)","initVtkGrid","only the last cell kept","C51 number of cells")
v("vt08","pure ⟨s.pts, s.sol, s.hex, s.cells ++ [s.hex]⟩)","pure ⟨s.pts, s.sol, s.hex, s.hex :: s.cells⟩)","initVtkGrid","cells inserted in reverse order","C51 cell e is element e")
v("vt09","types.findIdx? fun t => t ≠ VTK_LAGRANGE_HEXAHEDRON ∧ t ≠ VTK_TRIQUADRATIC_HEXAHEDRON","types.findIdx? fun t => t ≠ VTK_LAGRANGE_HEXAHEDRON","badCell","triquadratic cells rejected","C51 accepted types")
v("vt10","types.findIdx? fun t => t ≠ VTK_LAGRANGE_HEXAHEDRON ∧ t ≠ VTK_TRIQUADRATIC_HEXAHEDRON","types.findIdx? fun t => t ≠ VTK_LAGRANGE_HEXAHEDRON ∨ t ≠ VTK_TRIQUADRATIC_HEXAHEDRON","badCell","or for and: every cell rejected","C51 accepted types")
v("vt11","let a ← Arr.set a (v * 3 + 0) x.1\n    let a ← Arr.set a (v * 3 + 1) x.2.1","let a ← Arr.set a (v * 3 + 0) x.2.1\n    let a ← Arr.set a (v * 3 + 1) x.1","readCoords","x and y swapped on reading","C51 coordinates read")
v("vt12","Arr.set a (e * stride + v) gid) list","Arr.set a (e * nv + v) gid) list","readCells","row length (p+1)^3 instead of the allocated stride","C51 connectivity read")
v("vt13","    let v ← map.get i\n    Arr.set a (e * stride + v) gid) list","    Arr.set a (e * stride + i) gid) list","readCells","map not applied on reading","C51 connectivity read")
v("vt14","let map ← makeMap V p true","let map ← makeMap V p false","initSwageMesh","forward map used for reading","C51 connectivity read")
v("vt15","let coords ← readCoords g ⟨g.pts.size * 3, jc⟩","let coords ← readCoords g ⟨g.pts.size * 2, jc⟩","initSwageMesh","coordinate array with two columns","C51 bounds")
v("vt16","loopM nv (writeVert m map solution cols e) s","loopM (nv - 1) (writeVert m map solution cols e) s","initVtkGrid","last vertex of every element not written","C51 connectivity")
h("ho01","if c = 0 then L d.1 else if c = 1 then L d.2.1 else L d.2.2","if c = 0 then L d.2.2 else if c = 1 then L d.2.1 else L d.1","interpPoint","reference directions reversed","C69_gauss")
h("ho02","if c = 1 then ap 1 s.verts.vy else ap 2 s.verts.vz","if c = 1 then ap 1 s.verts.vz else ap 2 s.verts.vy","interpPoint","y and z interpolants swapped","C69_gauss")
h("ho03","pure ⟨s.verts, s.count + 1, g⟩","pure ⟨s.verts, s.count, g⟩","interpPoint","counter not advanced","C69_gauss")
h("ho04","let Z ← Points.equispacedPoints (p + 1) (-1) 1 q.vert","let Z ← Points.equispacedPoints (p + 1) 0 1 q.vert","refineHighOrder","vertices of the reference element on [0,1]","C69_vertex")
h("ho05","(v i 2 - v j 2) * (v j 2 - v j 2))","(v i 2 - v j 2) * (v i 2 - v j 2))","pairDist","z distance repaired","C69_zdir_negation must fail")
h("ho06","dm / (7 * (p : ℝ))","dm / 7","hashDist","bin size not divided by the order","C69_numbering_partial resolution")
h("ho07","loop N (fun n m => min m (x n d)) numMax","loop N (fun n m => min m (x n d)) numMin","posMin","lower bound starts at NUM_MIN","C69_bins")
h("ho08","loop N (fun n m => max m (x n d)) numMin","loop N (fun n m => min m (x n d)) numMin","posMax","min for max in the upper bound","C69_bins")
h("ho09","let vs ← getVerts ((p + 1) ^ 3) (nodes e) x s.verts","let vs ← getVerts ((p + 1) ^ 3) (nodes 0) x s.verts","gaussPoints","vertices of element 0 for all elements","C69_gauss")
h("ho10","let n := 2 * p + 1","let n := p + 1","refineHighOrder","p+1 points per direction","C69_cells")
h("ho11","let S := p * 2","let S := p","refineHighOrder","p cells per direction","C69_cells/partition")
h("ho12","let vz ← s.vz.set v (x (nodes v) 2)","let vz ← s.vz.set v (x (nodes v) 1)","getVerts","y coordinate copied to z","C69_gauss")
h("ho13","index N x h y 1 * bins N x h 0 + index N x h y 2 * bins N x h 0 * bins N x h 1","index N x h y 1 * bins N x h 0 + index N x h y 2 * bins N x h 0","key","missing factor in the z term of the key","C69_numbering_partial")
h("ho14","(posMax N x d - posMin N x d + 1 + 1 / 10 ^ 14) / h","(posMax N x d - posMin N x d) / h","bins","no spare bin","C69_bins")
h("ho15","loopM V (fun v s => do\n    let vx ←","loopM (V - 1) (fun v s => do\n    let vx ←","getVerts","last vertex not copied","C69_gauss")
h("ho16","let lob ← Quad.lobatto_nodes_1D n ⟨n, q.lob⟩","let lob ← Quad.legendre_nodes_1D n ⟨n, q.lob⟩","refineHighOrder","Gauss-Legendre nodes","C69_vertex, conformity")
h("ho17","let _ ← if h = 0 then none else some ()\n","","refineHighOrder","undefined conversion for h = 0 ignored","C69_curved/first_vertex/zdir negation")
h("ho18","loop (p + 1) fun j => loop (p + 1 - (j + 1)) fun t m","loop ((p + 1) ^ 3) fun j => loop ((p + 1) ^ 3 - (j + 1)) fun t m","minDist","all pairs of vertices","C69_first_vertex_negation must fail")
json.dump(M,open("/tmp/mut9.json","w"))
