import json
M=[]
def e(id,f,old,new,d,edit,claim,target,**k):
    M.append(dict(id=id,file="Verif/%s.lean"%f,old=old,new=new,edit=edit,claim=claim,target=target,**{"def":d},**k))
L="Concurrent/Lagrange"; T="Verif.Concurrent.Theorems"
def g(i,old,new,d,ed,cl,**k): e("cla-30_%02d"%i,L,old,new,d,ed,cl,T,same_file=True,**k)
g(1,"wrI o i (x % N)","wrI o i (x / N)","digitsP","quotient stored","C113 values")
g(2,"    pure (x / N)) I","    pure (x % N)) I","digitsP","remainder carried on","C113 values")
g(3,"let j ← rdI o 1\n  let lj := eval N j (fnd (X 1)) Z w (X 1)\n  let k ← rdI o 2\n  let lk := eval N k (fnd (X 2)) Z w (X 2)\n  pure [li * lj * lk]","let j ← rdI o 0\n  let lj := eval N j (fnd (X 1)) Z w (X 1)\n  let k ← rdI o 2\n  let lk := eval N k (fnd (X 2)) Z w (X 2)\n  pure [li * lj * lk]","evalBasisP","wrong digit","C113 values")
g(4,"wrC o (N + k) v) ()\n  let v ← interpP (fun m => rdC o (N + m))","wrC o k v) ()\n  let v ← interpP (fun m => rdC o (N + m))","evalApproxP","second line of C overwritten by the first","C113 values")
g(5,"let v ← interpP (fun m => rdC o (N + m)) N (fnd (X 2))","let v ← interpP (fun m => rdC o m) N (fnd (X 2))","evalApproxP","wrong line read","C113 values")
g(6,"      wrC o (2 * N + k) v) ()\n    copyP o N fun m => rdC o (2 * N + m)","      wrC o (3 * N + k) v) ()\n    copyP o N fun m => rdC o (3 * N + m)","evalGradApproxP","a line behind the end of C (the values are right)","C113: no thread leaves its arrays")
g(7,"      copyP o N fun m => rdC o (N + m)\n","","evalGradApproxP","copy forgotten","C113 values")
g(8,"loopP N (fun j _ => wrC o j (if j ≠ i then 0 else 1)) ()","loopP N (fun j _ => wrC o j (if j ≠ i then 1 else 0)) ()","derP","Kronecker symbol inverted","C113 values")
g(9,"  loopP N (fun j _ => wrC o j (if j ≠ i then 0 else 1)) ()\n","  wrC o i 1\n","derP","the other entries keep what earlier calls left","C113_history")
g(10,"let dlj ← derP o N j (fnd (X 1)) Z w (X 1)","let dlj ← derP (o + 1) N j (fnd (X 1)) Z w (X 1)","evalGradBasisP","work array of another object (alone the values are right)","C113: accesses of own object only")
g(11,"wrC o j (1 / (Z ic - Z j) * (p - c))","wrC o j (1 / (Z ic - Z j) * (c - p))","derInterpP","sign","C113 values")
g(12,"wrC o j (1 / (Z ic - Z j) * (p - c))","wrC o (N + j) (1 / (Z ic - Z j) * (p - c))","derInterpP","wrong line written","C113 values")
g(13,"def evalApproxP (fnd : K → ℕ) (o N : ℕ) (Z c X : ℕ → K) : Prog K (List K) := do\n","def evalApproxP (fnd : K → ℕ) (o N : ℕ) (Z c X : ℕ → K) : Prog K (List K) := do\n  wrI o 0 0\n","evalApproxP","uses ijk as scratch (the values are right)","C113: an expansion does not use ijk")
L="Concurrent/Legendre"
def g(i,old,new,d,ed,cl,**k): e("cle-30_%02d"%i,L,old,new,d,ed,cl,T,same_file=True,**k)
g(1,"      wrC o (N + k) v) ()\n    let v ← lineP (l == 2)","      wrC o k v) ()\n    let v ← lineP (l == 2)","evalGradApproxP","first line overwritten","C113 values")
g(2,"let dPk := derReal k (X 2)\n","let dPk := derReal k (X 1)\n","evalGradBasisP","wrong coordinate","C113 values")
g(3,"let v ← lineP (l == 1) (rdC o) N (X 1)","let v ← lineP (l == 2) (rdC o) N (X 1)","evalGradApproxP","derivative in the wrong direction","C113 values")
g(4,"    wrC o (N + k) v) ()\n  let v ← lineP false (fun m => rdC o (N + m)) N (X 2)\n  pure [v]","    wrC o (2 * N + k) v) ()\n  let v ← lineP false (fun m => rdC o (2 * N + m)) N (X 2)\n  pure [v]","evalApproxP","line behind the end of C (the values are right)","C113: no thread leaves its arrays")
g(5,"  digitsP o N I\n  let i ← rdI o 0\n  let Pi := eval i (X 0)\n  let j ← rdI o 1\n  let Pj := eval j (X 1)\n  let k ← rdI o 2\n  let Pk := eval k (X 2)\n  pure","  let i ← rdI o 0\n  let Pi := eval i (X 0)\n  let j ← rdI o 1\n  let Pj := eval j (X 1)\n  let k ← rdI o 2\n  let Pk := eval k (X 2)\n  pure","evalBasisP","digits not computed","C113_history")
H="Heap/Model"; T="Verif.Heap.Theorems"
def g(i,old,new,d,ed,cl,**k): e("hea-30_%02d"%i,H,old,new,d,ed,cl,T,**k)
g(1,"  | .lagrange _ w _, h => h.delete w\n","  | .lagrange _ w C, h => (h.delete w).bind fun h => h.delete C\n","Obj.destroy","the leak repaired","C114_leak_negation")
g(2,"  | .lagrange _ w _, h => h.delete w\n","  | .lagrange _ _ C, h => h.delete C\n","Obj.destroy","C given back instead of w","C114: what is lost")
g(3,"  | .lagrange _ w _, h => h.delete w\n","  | .lagrange _ w _, h => (h.delete w).bind fun h => h.delete w\n","Obj.destroy","given back twice","C114_memory_partial")
g(4,"  | .lagrange _ w _, h => h.delete w\n","  | .lagrange _ _ _, h => some h\n","Obj.destroy","nothing given back","C114: what is lost")
g(5,"  | .legendre _ _, h => some h\n","  | .legendre _ C, h => h.delete C\n","Obj.destroy","the leak of LegendreElement repaired","C114: what is lost")
g(6,"let C := h.new (2 * N)","let C := h.new (3 * N)","newLegendre","larger work array","C114: what an element needs")
g(7,"  let a := h.new (m * n)\n  a.2.delete a.1","  let a := h.new (m * n)\n  some a.2","matvec","nothing given back","C114: matvec leaks nothing")
g(8,"  c.2.delete a.1","  c.2.delete c.1","matmul","c given back instead of a","C114: what is lost",nth=0)
g(9,"  b.2.delete a.1","  (b.2.delete a.1).bind fun h => h.delete ipiv.1","invert","two blocks given back","C114: what is lost")
g(10,"  work.2.delete work.1","  work.2.delete diag.1","eig","the other block given back","C114: what is lost")
g(11,"let C := w.2.new (3 * N)\n  (.lagrange N w.1 C.1, C.2)","let C := w.2.new (3 * N)\n  (.lagrange N C.1 w.1, C.2)","newLagrange","pointers exchanged","C114: what is lost")
g(12,"(s.obj i).map fun o => s.push (o, s.heap)","(s.obj i).map fun o => match o with\n    | .lagrange N _ _ => s.push (newLagrange s.heap N)\n    | .legendre N _ => s.push (newLegendre s.heap N)","State.step","copies get memory of their own","C114_copy_negation")
g(13,"    h.delete f.vol\n","    some h\n","Obj.destroy","volume_ forgotten in ~mat_pt_t","C114_average")
g(14,"let h ← h.delete f.coords\n","let h ← h.delete f.id\n","Obj.destroy","mat_id_ given back twice","C114_memory_partial")
g(15,"let co := id.2.new (k * n)","let co := id.2.new n","initMatpt","coords_ too small","C114: what an object needs")
g(16,"    | some (.node _) => some (s.put i (initNode s.heap n))","    | some (.node none) => some (s.put i (initNode s.heap n))\n    | some (.node (some f)) => (s.heap.delete f.1).map fun h => s.put i (initNode h n)","State.step","init_node_state gives the old block back","C114_init_negation")
g(17,"  let v := h.new n\n  v.2.delete v.1","  let v := h.new n\n  some v.2","vtk","delete[] vert_map forgotten","C114: no leak in init_swage_mesh")
g(18,"  | .node (some f), h => h.delete f.1\n","  | .node (some _), h => some h\n","Obj.destroy","destructor of node_t removed (as its comment suggests)","C114_average")
G="Geometry/Model"; T="Verif.Geometry.BoundaryTheorems"
def b(i,f,old,new,d,ed,cl,**k): e("bdy-30_%02d"%i,f,old,new,d,ed,cl,T,**k)
b(1,G,"[0, 1, 3, 2, 4, 5, 7, 6].getD l 0","[0, 1, 2, 3, 4, 5, 6, 7].getD l 0","cCon","vertices not permuted","C112_cell")
b(2,"Swage/Patch","[0,2,6,4, 1,3,7,5,","[0,2,6,4, 1,5,7,3,","patchNodeTable","one side listed the other way round","C112_cell")
b(3,G,"y 5*(-z 0 - z 1 + z 6 + z 7)))*(1 / 12)","y 5*(-z 0 - z 1 + z 6 + z 7)))*(1 / 6)","hexVol","wrong factor","C112_cell")
b(4,G,"x 2*(y 0*(-z 1 + z 3) +","x 2*(y 0*(-z 1 - z 3) +","hexVol","one sign","C112_cell")
json.dump(M,open('/tmp/mut30.json','w'))
