import json
M=[]
def e(id,f,old,new,d,edit,claim,target,**k):
    M.append(dict(id=id,file="Verif/%s.lean"%f,old=old,new=new,edit=edit,claim=claim,target=target,**{"def":d},**k))
C="Verif.ComplexStep.Theorems"; L="Verif.Legendre.ElementTheorems"; G="Verif.LagrangeElement.Theorems"; Q="Verif.Golub.Theorems"; B="Verif.Blas.Theorems"; I="Verif.Blas.Invert"; A="Verif.Average.Steady"
e("cs01","ComplexStep/Model","def abs (z : ℂ) : ℝ := |z.re|","def abs (z : ℂ) : ℝ := |z.re| + |z.im|","abs","modulus instead of real part","C83",C)
e("cs02","ComplexStep/Model","abs (a - b) < tol","abs (a + b) < tol","almostEqual","sum compared","C83",C)
e("cs03","ComplexStep/Model","(if almostEqual tol (z j) x then 1 else 0)) (0 - 1)","(if almostEqual tol (z j) x then 1 else 0)) 0","findCoincidentVertex","starts from 0","C83",C)
e("cs04","ComplexStep/Model","(Legendre.ja α β (m + 1) : ℝ) * X + (Legendre.jb α β (m + 1) : ℝ)","(Legendre.ja α β (m + 1) : ℝ) * X - (Legendre.jb α β (m + 1) : ℝ)","jacobiShift","sign of b","C84",C)
e("cs05","ComplexStep/Model","legEvalDer n 1 x","legEvalDer n 2 x","legGradBasis","second derivative","C84",C)
e("cs06","ComplexStep/Model","jacobiEval (n - k) (α + k) (β + k) X","jacobiEval (n - k) (α + k) (β) X","jacobiEvalDer","beta not raised","C84",C)
e("le15_1","Legendre/Element","let Pj := eval j (X 1)\n    let Pk := eval k (X 2)\n    some (Pi","let Pj := eval j (X 2)\n    let Pk := eval k (X 1)\n    some (Pi","evalBasis","y and z swapped","C-Legendre basis",L)
e("le15_2","Legendre/Element","Pi * dPj * Pk, Pi * Pj * dPk","Pi * Pj * dPk, Pi * dPj * Pk","evalGradBasisAt","y and z components swapped","gradient",L)
e("le15_3","Legendre/Element","store C j (Legendre.evalApprox N (fun m => c (j * N + k * N * N + m)) (X 0))","store C j (Legendre.evalApprox N (fun m => c (k * N + j * N * N + m)) (X 0))","evalApprox","strides of j and k swapped","approx",L)
e("le15_4","Legendre/Element","store C (N + k) (Legendre.evalApprox N C (X 1))","store C (k) (Legendre.evalApprox N C (X 1))","evalApprox","work array overlap","approx",L)
e("le15_5","Legendre/Element","lineEvalAt der (l == 1) N C (X 1)","lineEvalAt der (l == 2) N C (X 1)","evalGradApproxAt","wrong direction","gradient of approx",L)
e("le06","Legendre/Element","store s.2 l (lineEvalAt","store s.2 (l+1) (lineEvalAt","evalGradApproxAt","output shifted","gradient of approx",L)
e("la15_1","LagrangeElement/Model","let lj := eval N j (fnd (X 1)) Z w (X 1)","let lj := eval N j (fnd (X 0)) Z w (X 1)","evalBasisAt","coincidence of x used for y","basis",G)
e("la15_2","LagrangeElement/Model","let dlk := evalDer N 1 k iz Z w (X 2) C2","let dlk := evalDer N 1 k iz Z w (X 1) C2","evalGradBasisAt","y for z","grad basis",G)
e("la15_3","LagrangeElement/Model","store r.2 (N + j) r.1","store r.2 (N + j + 1) r.1","evalGradApproxAt","offset","grad approx",G)
e("la15_4","LagrangeElement/Model","copyTo N (fun C m => C (2 * N + m)) C","copyTo N (fun C m => C (N + m)) C","evalGradApproxAt","wrong line copied","grad approx",G)
e("la15_5","LagrangeElement/Model","evalGradApproxAt fnd N Z s.1 y X 3 s.2","evalGradApproxAt fnd N Z s.1 x X 3 s.2","evalJacAt","x for y","jacobian",G)
e("la15_6","LagrangeElement/Model","- J 1 * (J 3 * J 8 - J 5 * J 6) +","+ J 1 * (J 3 * J 8 - J 5 * J 6) +","det9","sign","determinant",G)
e("la07","LagrangeElement/Model","store Jinv 5 (-d *","store Jinv 5 (d *","evalInvJacAt","sign","inverse jacobian",G)
e("la08","LagrangeElement/Model","store Jinv 1 (-d * (J 1 * J 8 - J 2 * J 7))","store Jinv 3 (-d * (J 1 * J 8 - J 2 * J 7))","evalInvJacAt","entry 1 stored at 3","inverse jacobian",G)
e("la09","LagrangeElement/Model","let d := 1 / (evalDetJacAt fnd N Z s.1 x y z X J0').1","let d := (evalDetJacAt fnd N Z s.1 x y z X J0').1","evalInvJacAt","not inverted","inverse jacobian",G)
e("gj-15_01","Golub/Model","jc α β (k + 2) / (ja","jc α β (k + 1) / (ja","gaussJacobi","index of c","C-Golub",Q)
e("gj-15_02","Golub/Model","e.eigvecs.get j 0","e.eigvecs.get 0 j","gaussJacobi","row for column","C-Golub weights",Q)
e("gj-15_03","Golub/Model","2 ^ (α + β + 1) * Real.Gamma (α + 1)","2 ^ (α + β) * Real.Gamma (α + 1)","gaussJacobi","mass halved","C-Golub weights",Q)
e("gj-15_04","Golub/Model","(-jb α β (k + 1) / ja α β (k + 1))","(jb α β (k + 1) / ja α β (k + 1))","gaussJacobi","sign of the diagonal","C-Golub",Q)
e("gj-15_05","Golub/Model","q * q * mu0","q * mu0","gaussJacobi","not squared","C-Golub weights",Q)
e("gj-15_06","Golub/Model","vals, ⟨eigvecs.rows, eigvecs.cols, ⟨eigvecs.data.size, r.2.1⟩⟩, r.2.2⟩","vals, ⟨eigvecs.rows, eigvecs.cols, ⟨eigvecs.data.size, r.2.1⟩⟩, 0⟩","eigSymTri","info dropped","C85",Q)
e("gj-15_07","Golub/Model","⟨subdiag.size, S.left diag.size copy.val subdiag.val⟩","subdiag","eigSymTri","subdiagonal kept","C85",Q)
e("gj-15_08","Golub/Model","pure ⟨diag, ⟨subdiag.size,","pure ⟨⟨diag.size, r.1⟩, ⟨subdiag.size,","eigSymTri","diagonal overwritten","C85",Q)
e("gj-15_09","Golub/Model","let w ← s.weights.set 0 2","let w ← s.weights.set 0 1","gaussJacobi","weight of the one-point rule","C-Golub n = 1",Q)
e("bl-15_01","Blas/Model","a.set (i + A.cols * j) v) ⟨A.rows","a.set (i + A.rows * j) v) ⟨A.rows","pack","leading dimension rows","negation for non-square",B)
e("bl-15_02","Blas/Model","if m = 0 ∨ n = 0 then some y else do","if m = 0 then some y else do","gemv","no quick return for n = 0","empty product",B)
e("bl-15_02b","Blas/Model","if m = 0 ∨ n = 0 then some y else do","if m = 0 then some y else do","gemv","no quick return for n = 0","C50 (empty product)",B,tightened=["C50_empty_negation"])
e("bl-15_03","Blas/Model","let y ← loopM m (fun i y => y.set i 0) y\n","","gemv","y not cleared","matvec",B)
e("bl-15_04","Blas/Model","y.set i (v + t * c)","y.set i (t * c)","gemv","not accumulated","matvec",B)
e("bl-15_05","Blas/Model","      let v ← c.get (i + B.cols * j)\n      C.set i j v","      let v ← c.get (j + B.cols * i)\n      C.set i j v","matmul","transposed on copy","matmul",B)
e("bl-15_06","Blas/Model","if lda < max 1 m then none else","","gemv","no xerbla","matvec of empty",B)
e("bl-15_07","Blas/Model","      B.set j i v) B\n  else none\n\n/-- The copy","      B.set i j v) B\n  else none\n\n/-- The copy","transpose","not transposed","transpose",B)
e("bl-15_08","Blas/Model","(if i = j then 1 else 0)","(if i ≤ j then 1 else 0)","invert","triangular right-hand side","inverse",I)
e("bl-15_09","Blas/Model","      let v ← (⟨A.rows * A.cols, x.1⟩ : Arr ℝ).get (i + A.cols * j)","      let v ← (⟨A.rows * A.cols, x.1⟩ : Arr ℝ).get (j + A.cols * i)","invert","inverse transposed","inverse",I)
e("bl-15_10","Blas/Model","pure (C, f.2.2, x.2)","pure (C, x.2, x.2)","invert","info of getrf lost","singular detection",I)
e("av-15_01","Average/Model","    pure (t + v / 8)) 0","    pure (t + v / 4)) 0","cellAverage","division by four","C86,C87",A)
e("av-15_02","Average/Model","    pure (t + v / k)) 0","    pure (t + v / 8)) 0","nodeAverage","always divided by eight","C86,C87",A)
e("av-15_03","Average/Model","let node ← setBoundary m 3 0 s.node\n  let node ← setBoundary m 0 10 node","let node ← setBoundary m 3 10 s.node\n  let node ← setBoundary m 0 0 node","applyBoundary","values swapped","C87",A)
e("av-15_04","Average/Model","    let s ← smoothElement m s\n    applyBoundary m s) s","    let s ← applyBoundary m s\n    smoothElement m s) s","cycles","boundary before smoothing","C86 (values on the boundary)",A)
e("av-15_05","Average/Model","let node ← setBoundary m 3 0 s.node\n","let node := s.node\n","applyBoundary","zero side dropped","C86,C87",A)
e("av-15_06","Average/Model","    let t ← nodeAverage m cell n\n    node.set n t) s.node\n  pure ⟨node, cell⟩\n\n/-- One of the two","    let t ← nodeAverage m s.cell n\n    node.set n t) s.node\n  pure ⟨node, cell⟩\n\n/-- One of the two","smoothElement","old cell field averaged","C86",A)
json.dump(M,open("/tmp/mut15.json","w"))
