import json
M=[]
def e(id,f,old,new,d,edit,claim,target,**k):
    M.append(dict(id=id,file="Verif/%s.lean"%f,old=old,new=new,edit=edit,claim=claim,target=target,**{"def":d},**k))
J="Jacobian/Model"; T="Verif.Jacobian.Theorems"
e("jc-29_01",J,"    - J 0 1 * (J 1 0 * J 2 2) - (J 2 0 * J 1 2)","    - J 0 1 * (J 1 0 * J 2 2 - J 2 0 * J 1 2)","jacobian3d","one parenthesis corrected (again jc-23_02)","what jacobian_3d computes",T,tightened=["C21_det3_error"])
e("jc-29_02",J,"let A13 := J 1 0 * J 1 1 - J 2 0 * J 1 1","let A13 := J 1 0 * J 2 1 - J 2 0 * J 1 1","jacobianInverse3d","the wrong cofactor corrected (again jc-23_04)","what jacobian_inverse_3d computes",T,tightened=["C22_inverse3_error"])
e("jc-29_03",J,"let det := J 0 0 * A11 + J 0 1 * A21 + J 0 2 * A31","let det := J 0 0 * A11 + J 1 0 * A21 + J 2 0 * A31","jacobianInverse3d","the determinant corrected","what jacobian_inverse_3d computes",T)
e("jc-29_04",J,"    + J 0 2 * (J 1 0 * J 2 1) - (J 2 0 * J 1 1))","    + J 0 2 * (J 1 0 * J 2 1 - J 2 0 * J 1 1))","jacobian3d","last parenthesis corrected","what jacobian_3d computes",T)
C="Fp/ComplexModel"; T="Verif.Fp.ComplexTheorems"
def g(i,old,new,d,ed,cl,**k): e("cxs-29_%02d"%i,C,old,new,d,ed,cl,T,**k)
g(1,"R.fl (R.fl (z.1 * w.2) + R.fl (z.2 * w.1))","R.fl (R.fl (z.1 * w.2) - R.fl (z.2 * w.1))","cmul","sign of a cross term","C111_eval: derivative")
g(2,"R.fl (R.fl (z.1 * w.1) - R.fl (z.2 * w.2))","R.fl (R.fl (z.1 * w.1) + R.fl (z.2 * w.2))","cmul","sign of the product of the imaginary parts","C111_eval: real part (the bound allows errors of order h^2)")
g(3,"R.fl (R.fl (z.1 * w.2) + R.fl (z.2 * w.1))","R.fl (R.fl (z.1 * w.2) + R.fl (z.2 * w.2))","cmul","wrong part","C111_eval: derivative")
g(4,"  | 1 => (1, 0)\n","  | 1 => (1, 1)\n","evalShift","imaginary part of the constant","C111_eval")
g(5,"rmul R (R.fl (n - 1)) (evalShift X m)","rmul R (R.fl n) (evalShift X m)","evalShift","wrong coefficient","C111_eval")
g(6,"R.fl (f.2 / h)","R.fl (f.1 / h)","step","real part divided","C111_eval")
g(7,"loop N (fun j sum => cadd R sum (cmul R (c j) (eval R j X))) (0, 0)","loop N (fun j _ => cmul R (c j) (eval R j X)) (0, 0)","evalApprox","= instead of +=","C111_approx")
g(8,"loop N (fun j sum => cadd R sum (cmul R (c j) (eval R j X))) (0, 0)","loop N (fun j sum => cadd R sum (rmul R (c j).1 (eval R j X))) (0, 0)","evalApprox","real coefficients (equivalent for real coefficients up to a rounding)","none: still true")
g(9,"let Pk := eval R k (X 2)","let Pk := eval R k (X 1)","elemBasis","wrong coordinate","C111_basis")
g(10,"some (cmul R (cmul R Pi Pj) Pk)","some (cmul R Pi Pj)","elemBasis","factor dropped","C111_basis")
g(11,"(R.fl (z.1 + w.1), R.fl (z.2 + w.2))","(R.fl (z.1 + w.1), R.fl z.2)","cadd","imaginary part dropped","C111_approx")
S="Ieee/ShapeModel"; T="Verif.Ieee.ShapeTheorems"
def g(i,old,new,d,ed,cl,**k): e("ish-29_%02d"%i,S,old,new,d,ed,cl,T,same_file=True,**k)
g(1,"some (loop dim (fun d p => store p d (p d + cn (V v d) * basis v)) p)","some (loop dim (fun d p => store p d (cn (V v d) * basis v)) p)","accumulateI","= instead of +=","C110_position")
g(2,"if v < nv then some (store p d (p d + cn (V v d) * basis v))","if v < nv then some (store p d (p d + cn (V d v) * basis v))","accumulateDimOuterI","transposed vertices","C110_position")
g(3,"    (some (loop dim (fun d p => store p d (cn 0)) x0))","    (some x0)","accumulateI","uninitialised position",  "C110_position",nth=0)
g(4,"fun v => ((cn (1/4) * (cn 1 + (X 0 * r v 0))) * (cn 1 + (X 1 * r v 1)))","fun v => ((cn (1/4) * (cn 1 + (X 0 * r v 0))) * (cn 1 + (X 0 * r v 1)))","Quad4.basis","wrong coordinate","C110_basis",nth=0)
g(5,"FNum.fin (A.fl (rv v d))","FNum.fin (A.fl (rv d v))","table","transposed table","C110_basis")
g(6,"fun v => ((cn (1/4) * r v 0) * (cn 1 + (X 1 * r v 1)))","fun v => ((cn (1/2) * r v 0) * (cn 1 + (X 1 * r v 1)))","Quad4.partialXi","wrong factor","C110_partials",nth=0)
g(7,"  let b := Shape.fillFrom 5 (7 + 1) 2 ","  let b := Shape.fillFrom 5 7 2 ","Quad8.basis","last node missing","C110_basis",nth=0)
e("fps-29_01","Fp/ShapeModel","accumulateR R numDim numVerts (numVerts + 1) V","accumulateR R numDim numVerts numVerts V","Hex32.physicalPosition","bound repaired (again fps-25_12)","C104_hex32_negation","Verif.Fp.ShapeTheorems",tightened=["C104_hex32_negation"])
g(8,"accumulateI A numDim numVerts (numVerts + 1) V","accumulateI A numDim numVerts numVerts V","Hex32.physicalPosition","bound repaired","C110_hex32_negation")
json.dump(M,open('/tmp/mut29.json','w'))
