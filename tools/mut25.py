import json
M=[]
def e(id,f,old,new,d,edit,claim,target,**k):
    M.append(dict(id=id,file="Verif/%s.lean"%f,old=old,new=new,edit=edit,claim=claim,target=target,**{"def":d},**k))
R="Legendre/RecModel"; T="Verif.Legendre.RecTheorems"
e("rec-25_01",R,"if n = -1 then some (0, 1)","if n = -1 then some (1, 1)","run","P_{-1} = 1","C103: value",T)
e("rec-25_02",R,"    else if n = 0 then some (1, 1)","    else if n = 0 then some (0, 1)","run","P_0 = 0","C103: value",T)
e("rec-25_03",R,"u.2 + v.2 + 1)","u.2 + v.2)","run","own call not counted","C103: cost",T)
e("rec-25_04",R,"let v ← run step S (n - 2)\n      pure (step","let v ← run step S (n - 3)\n      pure (step","run","second call at n - 3","C103: value / cost",T)
e("rec-25_05",R,"pure (step n u.1 v.1, u.2","pure (step n v.1 u.1, u.2","run","predecessors swapped","C103: value",T)
e("rec-25_06",R,"if n = -1 then some (0, 1)\n    else if n = 0","if n ≤ -1 then some (0, 1)\n    else if n = 0","run","negative orders return 0","C103: orders below -1 never return",T)
e("rec-25_07",R,"let u ← run step S (n - 1)","let u ← run step (S + 1 - 1 - 1) (n - 1)","run","two frames per call","C103: stack depth",T)
e("rec-25_08",R,"(2 * (n : K) - 1) * X * u - ((n : K) - 1) * v","(2 * (n : K) + 1) * X * u - ((n : K) - 1) * v","eval","2n+1","C103: value",T)
e("rec-25_09",R,"((n : K) - 1) * v)) S n","(n : K) * v)) S n","eval","factor n","C103: value",T)
e("rec-25_10",R,"if n = 1 then (1 / 2) * (α + β) + 1","if n = 1 then (1 / 2) * (α + β)","a","a_1 without 1","C103: Jacobi value",T)
e("rec-25_11",R,"if n = 1 then (1 / 2) * (α - β)","if n = 1 then (1 / 2) * (β - α)","b","sign of b_1","C103: Jacobi value",T)
e("rec-25_12",R,"if n = 1 then 0\n","if n = 1 then 1\n","c","c_1 = 1","(equivalent: multiplied by P_{-1} = 0 unless claimed by value)",T)
e("rec-25_13",R,"(a α β n * X + b α β n) * u - c α β n * v","(a α β n * X - b α β n) * u - c α β n * v","jacobiEval","sign of b","C103: Jacobi value",T)
e("rec-25_14",R,"if n = 0 ∨ k > n then some (0, 0)","if k > n then some (0, 0)","jacobiEvalDer","n = 0 not special","C103: zeroth derivative of order 0",T)
e("rec-25_15",R,"if n = 0 ∨ k > n then some (0, 0)","if n = 0 ∨ k ≥ n then some (0, 0)","jacobiEvalDer","k = n dropped","C103: derivative",T)
e("rec-25_16",R,"jacobiEval (α + k) (β + k) X S (n - k)","jacobiEval (α + k) (β + k) X S n","jacobiEvalDer","order not lowered","C103: derivative",T)
e("rec-25_17",R,"let θ : ℝ := n + (α + α) + 1","let θ : ℝ := n + (α + α)","jacobiEvalDer","theta off by one","C103: derivative",T)
e("rec-25_18",R,"Int.bmod j (2 ^ 32)","(j : ℤ)","toInt","no wrap","C103: counts above 2^31",T)
e("rec-25_19",R,"let v ← eval X S (toInt j)\n    pure (s.1 + co j * v.1, s.2 + v.2)","let v ← eval X S (toInt j)\n    pure (s.1 + co j * v.1, s.2)","evalApprox","cost not summed","C103: cost of eval_approx",T)
e("rec-25_20",R,"let v ← eval X S (toInt j)\n    pure (s.1 + co j * v.1","let v ← eval X S (toInt (j + 1))\n    pure (s.1 + co j * v.1","evalApprox","shifted","C103: value of eval_approx",T)
e("rec-25_21",R,"jacobiEvalDer 0 0 X S (toInt j) (toInt k)","jacobiEvalDer 0 0 X S (toInt k) (toInt j)","evalDerApprox","arguments swapped","C103: eval_der_approx",T)
e("rec-25_22",R,"let v ← jacobiEvalDer 0 0 X S (toInt j) (toInt k)\n    pure (s.1 + co j * v.1","let v ← jacobiEvalDer 0 0 X S (toInt j) (toInt k)\n    pure (s.1 + v.1","evalDerApprox","coefficient dropped","C103: eval_der_approx",T)
F="Fp/ShapeModel"; T="Verif.Fp.ShapeTheorems"
def q(i,old,new,d,ed,cl,**k): e("fps-25_%02d"%i,F,old,new,d,ed,cl,T,**k)
q(1,"(V v d * basis v)))) p) else none)","(V d v * basis v)))) p) else none)","accumulateR","vertex and dimension swapped","C104: position")
q(2,"    (some (loop dim (fun d p => store p d 0) x0))\n\n/-- The variant","    (some x0)\n\n/-- The variant","accumulateR","not cleared","C104: position")
q(3,"(store p d (R.fl (p d + R.fl (V v d * basis v)))) else none) s)","(store p d (R.fl (V v d * basis v))) else none) s)","accumulateDimOuterR","no sum","C104: position Hex20")
q(4,"if v < nv then some (loop dim","if v ≤ nv then some (loop dim","accumulateR","read past the end accepted","C104: Hex32 reads past its vertices")
q(5,"(fun v => R.fl (R.fl ((1/4) * r v 0) * R.fl (1 + R.fl (x 1 * r v 1)))) b","(fun v => R.fl (R.fl ((1/4) * r v 0) * R.fl (1 + R.fl (x 0 * r v 1)))) b","Quad4.partialXi","xi for eta","C104: Quad4 partial")
q(6,"(R.fl (R.fl (x 0 * r v 0) + R.fl (x 1 * r v 1)) - 1))) b","(R.fl (R.fl (x 0 * r v 0) + R.fl (x 1 * r v 1)) + 1))) b","Quad8.basis","+1","C104: Quad8 basis",nth=0)
q(7,"(R.fl (9 * R.fl (R.fl (x 0 * x 0) + R.fl (x 1 * x 1))) - 10))) b","(R.fl (9 * R.fl (R.fl (x 0 * x 0) + R.fl (x 1 * x 1))) - 9))) b","Quad12.basis","-9","C104: Quad12 basis",nth=0)
q(8,"R.fl (R.fl (R.fl (9 * r v 0) * R.fl (1 - R.fl (R.fl (3 * x 0) * x 0))) - R.fl (2 * x 0))","R.fl (R.fl (R.fl (9 * r v 0) * R.fl (1 - R.fl (R.fl (3 * x 0) * x 0))) + R.fl (2 * x 0))","Quad12.partialXi","sign of 2 xi","C104: Quad12 partial",nth=0)
q(9,"R.fl (R.fl (R.fl ((1/8) * R.fl (1 + R.fl (x 0 * r v 0))) * R.fl (1 + R.fl (x 1 * r v 1))) * r v 2)","R.fl (R.fl (R.fl ((1/8) * R.fl (1 + R.fl (x 0 * r v 0))) * R.fl (1 + R.fl (x 1 * r v 1))) * r v 1)","Hex8.partialMu","component","C104: Hex8 partial mu",nth=0)
q(10,"Shape.fillFrom 16 (19 + 1) 1 (fun v => R.fl (R.fl (R.fl ((1/4) * R.fl (1 + R.fl (x 0 * r v 0))) * R.fl (1 + R.fl (x 1 * r v 1))) * R.fl (1 - R.fl (x 2 * x 2))))","Shape.fillFrom 16 19 1 (fun v => R.fl (R.fl (R.fl ((1/4) * R.fl (1 + R.fl (x 0 * r v 0))) * R.fl (1 + R.fl (x 1 * r v 1))) * R.fl (1 - R.fl (x 2 * x 2))))","Hex20.basis","last vertex missed","C104: Hex20 basis",nth=0)
q(11,"+ R.fl (R.fl (9 * x 2) * x 2)) - 19))) b","+ R.fl (R.fl (9 * x 2) * x 2)) - 18))) b","Hex32.basis","-18","C104: Hex32 basis",nth=0)
q(12,"accumulateR R numDim numVerts (numVerts + 1) V","accumulateR R numDim numVerts numVerts V","Hex32.physicalPosition","bound repaired","C104: Hex32 position is undefined (negation)")
q(13,"accumulateR R 4 numVerts 16 V","accumulateR R 3 numVerts 16 V","Tess16.physicalPosition","tau not mapped","C104: Tess16 position")
q(14,"R.fl (R.fl ((1/16) * R.fl (1 + R.fl (x 0 * r v 0))) * R.fl (1 + R.fl (x 1 * r v 1))) * R.fl (1 + R.fl (x 2 * r v 2))) * r v 3)","R.fl (R.fl ((1/8) * R.fl (1 + R.fl (x 0 * r v 0))) * R.fl (1 + R.fl (x 1 * r v 1))) * R.fl (1 + R.fl (x 2 * r v 2))) * r v 3)","Tess16.partialTau","factor 1/8","C104: Tess16 partial tau")
q(15,"table (rv : ℕ → ℕ → ℝ) (v d : ℕ) : ℝ := R.fl (rv v d)","table (rv : ℕ → ℕ → ℝ) (v d : ℕ) : ℝ := R.fl (R.fl (rv v d) + 1 / 2 ^ 30)","table","vertices off by 2^-30","C104: error bounds")
E_="Ensight/Model"; T="Verif.Ensight.Theorems"; B="Verif.Ensight.BoxTheorems"
def g(i,old,new,d,ed,cl,t=T,**k): e("ens-25_%02d"%i,E_,old,new,d,ed,cl,t,**k)
g(1,"some { s with disk := { s.disk with dirs := Function.update s.disk.dirs p true } }","some s","step","mkdir does nothing","C105_finished: returns in a fresh directory")
g(2,"then some ⟨s.disk.put p [], some (p, [])⟩ else none","then some ⟨s.disk.put p [], some (p, (s.disk.files p).getD [])⟩ else none","step","append mode","C105: contents")
g(3,"| .put t => s.cur.map fun c => { s with cur := some (c.1, c.2 ++ t) }","| .put t => s.cur.map fun c => { s with cur := some (c.1, t) }","step","(one put per file: equivalent)","none")
g(4,"| .close => s.cur.map fun c => ⟨s.disk.put c.1 c.2, none⟩","| .close => s.cur.map fun c => ⟨s.disk, none⟩","step","close loses the buffer","C105_durable")
g(5,"  | none => d = s.disk\n","  | none => True\n","Leaves","closed files unsafe","C105_durable")
g(6,"List.replicate (5 - (dec n).length) '0' ++ dec n","dec n","fmt05","no padding","C105: files named by the case file")
g(7,"List.replicate (5 - (dec n).length) '0' ++ dec n","List.replicate (4 - (dec n).length) '0' ++ dec n","fmt05","%04d","C105: files named by the case file")
g(8,'chars "elem_id", chars "cell_field2"].getD','chars "elem_id", chars "cell_field1"].getD',"scalarName","two fields with one name","C105: every field has its file")
g(9,'chars "cell_field1", chars "elem", chars "elem_id"','chars "cell_field1", chars "elem_id", chars "elem"',"scalarName","names swapped","C105: fields under their names")
g(10,"row ← fields.get c\n    pure (t ++ (fmtE rnd 12 (row var)","row ← fields.get c\n    pure (t ++ (fmtE rnd 12 (row 0)","scalarText","always field 0","C105: contents")
g(11,"loopM num_cells (fun c t => do\n    let row","loopM (num_cells - 1) (fun c t => do\n    let row","scalarText","last cell missing","C105: contents")
g(12,"(chars \"Per_node vector values\\npart\\n\" ++","(chars \"Per_elem scalar values\\npart\\n\" ++","vecText","wrong header","C105: contents")
g(13,"times.flatMap fun t => fmtE rnd 12 t ++ ['\\n']","times.flatMap fun t => fmtE rnd 12 t","timesText","no newline","C105: case file readable")
g(14,'chars "TIME\\ntime set: 1\\nnumber of steps: " ++ fmtD 4 (d.id + 1)','chars "TIME\\ntime set: 1\\nnumber of steps: " ++ fmtD 4 d.id',"caseText","number of steps off by one","C105: case file announces the dumps written")
g(15,'chars "\\nfilename start number: 0\\n','chars "\\nfilename start number: 1\\n',"caseText","start number 1","C105: frames announced exist")
g(16,'chars "model: data/Testing.*****.geo\\n"','chars "model: Testing.*****.geo\\n"',"caseText","directory forgotten","C105: frames announced exist")
g(17,"""  let p ← sprintf 128 (chars "ensight/Testing.case")
  let t ← caseText rnd d
  pure (ops ++ write p t)""","""  let p ← sprintf 128 (chars "ensight/Testing.case")
  let t ← caseText rnd d
  pure (write p t ++ ops)""","dumpOps","case file first","C105_crash: announced frames are complete")
g(18,"let ops ← loopM 4 (fun var ops => do\n    let p ←","let ops ← loopM 3 (fun var ops => do\n    let p ←","dumpOps","last scalar file not written","C105_finished")
g(19,"[.mkdir (chars \"ensight\"), .mkdir (chars \"ensight/data\")]\n  let p ← sprintf 128","[.mkdir (chars \"ensight/data\"), .mkdir (chars \"ensight\")]\n  let p ← sprintf 128","dumpOps","directories in the wrong order","C105: returns")
g(20,"pure (o ++ r)","pure (r ++ o)","runOps","dumps reversed","C105_crash")
g(21,'let p ← sprintf 128 (chars "ensight/data/Testing." ++ fmt05 d.id ++ chars ".geo")','let p ← sprintf 128 (chars "ensight/data/Testing." ++ fmt05 (d.id + 1) ++ chars ".geo")',"dumpOps","geometry one ahead","C105_crash")
g(22,"loop num_cells (fun _ t => t ++ (fmtE rnd 12 1 ++","loop num_cells (fun _ t => t ++ (fmtE rnd 12 0 ++","boxVarText","material index 0","C105_box",B)
g(23,"let l ← Average.printTimes (num + 1) times","let l ← Average.printTimes num times","boxCaseText","time missing","C105_box",B)
g(24,'fmtD 4 (num + 1) ++ chars "\\nfilename start number: 1','fmtD 4 (num + 1) ++ chars "\\nfilename start number: 0',"boxCaseText","start number 0","C105_box",B)
g(25,'let p ← sprintf 100 (chars "ensight/data/mesh." ++ fmt05 (num + 1) ++ chars ".var")','let p ← sprintf 100 (chars "ensight/data/mesh." ++ fmt05 num ++ chars ".var")',"boxOps","variable file one behind","C105_box",B)
g(26,"let ops := ops ++ write p (boxVarText rnd num_cells)","let ops := write p (boxVarText rnd num_cells) ++ ops","boxOps","files before the directories","C105_box",B)
g(27,"sprintf 128 (chars \"ensight/data/Testing.\" ++ fmt05 d.id ++ chars \".geo\")","sprintf 30 (chars \"ensight/data/Testing.\" ++ fmt05 d.id ++ chars \".geo\")","dumpOps","small buffer","C105: returns")
for m in M:
    s=open("/verif/lean/"+m["file"]).read(); n=s.count(m["old"])
    if n!=1 and "nth" not in m or n==0: print(m["id"],n)
json.dump(M,open("/tmp/mut25.json","w"),ensure_ascii=False,indent=1)
print(len(M))
