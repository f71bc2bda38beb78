import json
M=[]
def t(id,old,new,d,edit,claim,**k):
    M.append(dict(id=id,file="Verif/Tensor/Model.lean",old=old,new=new,edit=edit,claim=claim,target="Verif.Tensor.Theorems",**{"def":d},**k))
def b(id,old,new,d,edit,claim,**k):
    M.append(dict(id=id,file="Verif/Blas/Model.lean",old=old,new=new,edit=edit,claim=claim,target="Verif.Blas.Invert",**{"def":d},**k))
t("tn01","| 2 => [-1 / √3, -1 * (-1 / √3)]","| 2 => [-1 / √2, -1 * (-1 / √2)]","gaussPts","wrong two-point abscissa","C31 exactness")
t("tn02","[5 / 9, 8 / 9, 5 / 9]","[5 / 9, 8 / 9, 4 / 9]","gaussWts","asymmetric weight","C31 exactness")
t("tn03","dec 7415311855993945 16, dec 9491079123427585 16]","dec 7415311855993954 16, dec 9491079123427585 16]","gaussPtsQ","transposed digits","C31 exactness")
t("tn04","| 2 => [1, 1]\n  | 3 => [1 / 3, 4 / 3, 1 / 3]","| 2 => [1, 1]\n  | 3 => [1 / 3, 1 / 3, 4 / 3]","lobWts","weights permuted","C31 Lobatto exactness")
t("tn05","| 3 => [1, 0, -1]","| 3 => [1, 0, 1]","lobPts","sign lost","C31 Lobatto exactness")
t("tn06","  let m := m - 1\n  if p = 1","  if p = 1","lineInfo","m not decremented","C31 index")
t("tn07","some (0, 2)\n  else","some (0, 1)\n  else","lineInfo","weight 1 for one point","C31 exactness")
t("tn08","else if 2 ≤ p ∧ p ≤ 8","else if 2 ≤ p ∧ p ≤ 7","lineInfo","eight-point rule missing","C31 orders 1 to 8")
t("tn09","let i : ℤ := (m + 1) - q * (j - 1)\n    let s ← s.setW cw m 0 1\n    let s ← s.setW cw m 1 1\n    let s ← s.setT","let i : ℤ := (m + 1) - q * j\n    let s ← s.setW cw m 0 1\n    let s ← s.setW cw m 1 1\n    let s ← s.setT","gauss2d","index off by a row","C31 index")
t("tn10","    let s ← dir lineGauss q cp cw m 1 j s\n    let a ← s.wts.get (m * cw + 0)\n    let b ← s.wts.get (m * cw + 1)\n    s.setT m (a * b)) s","    let s ← dir lineGauss q cp cw m 1 i s\n    let a ← s.wts.get (m * cw + 0)\n    let b ← s.wts.get (m * cw + 1)\n    s.setT m (a * b)) s","gauss2d","i used for both directions","C31 exactness")
t("tn11","s.setT m (a * b * c)) s","s.setT m (a * b)) s","gauss3d","total weight misses a factor","C31 total weight")
t("tn12","loopM (q * q * q) (fun m s => do\n    let p12 : ℤ := q * q\n    let k : ℤ := (m : ℤ) / p12 + 1\n    let jj : ℤ := (m + 1) - p12 * (k - 1)\n    let j : ℤ := (jj - 1) / q + 1\n    let i : ℤ := jj - q * (j - 1)\n    let s ← s.setW cw m 0 1\n    let s ← s.setW cw m 1 1\n    let s ← s.setW cw m 2 1\n    let s ← s.setT","loopM (q * q) (fun m s => do\n    let p12 : ℤ := q * q\n    let k : ℤ := (m : ℤ) / p12 + 1\n    let jj : ℤ := (m + 1) - p12 * (k - 1)\n    let j : ℤ := (jj - 1) / q + 1\n    let i : ℤ := jj - q * (j - 1)\n    let s ← s.setW cw m 0 1\n    let s ← s.setW cw m 1 1\n    let s ← s.setW cw m 2 1\n    let s ← s.setT","gauss3d","loop bound of two dimensions","C31 all points")
t("tn13","    let s ← s.setW cw m 2 1\n    let s ← dir lineLobatto q cp cw m 0 i s","    let s ← dir lineLobatto q cp cw m 0 i s","lobatto3d","third weight not initialised","C31 weights")
t("tn14","    let s ← s.setW cw m 4 1\n","    let s ← s.setW cw m 3 1\n","gauss4d","column 3 initialised (repairs the code)","C31_gauss4d_negation must fail")
t("tn15","let b : ℝ := (q : ℝ) ^ (dim - 2)","let b : ℝ := (q : ℝ) ^ (dim - 1)","index4","wrong power","C31 index in 4D")
t("tn16","dir lineLobatto q cp cw m 3 x.2.2.2 s) s","dir lineLobatto q cp cw m 3 x.2.2.1 s) s","lobatto4d","k used for l","C31 4D")
t("tn17","let a ← s.wts.set (m * cw + d) (w * r.2)","let a ← s.wts.set (m * cw + d) (w + r.2)","dir","weights added","C31 weights")
t("tn18","let p ← s.pts.set (m * cp + d) r.1","let p ← s.pts.set (m * cp + d) r.2","dir","weight stored as point","C31 points")
b("bl01","a.set (i + A.cols * j) v) ⟨A.rows","a.set (i + A.rows * j) v) ⟨A.rows","pack","leading dimension repaired","C50 negations must fail")
b("bl02","a.set (i + A.cols * j) v) ⟨A.rows","a.set (j + A.cols * i) v) ⟨A.rows","pack","row-major packing","C50 square product")
b("bl03","    gemv A.rows A.cols a A.rows x y","    gemv A.cols A.rows a A.rows x y","matvec","dimensions swapped","C50 matvec column case")
b("bl04","let v ← c.get (i + B.cols * j)\n      C.set i j v","let v ← c.get (i + A.rows * j)\n      C.set i j v","matmul","unpacking repaired","C50_matmul_negation must fail")
b("bl05","C.set i j v) C\n  else none\n\n/-- The two","C.set j i v) C\n  else none\n\n/-- The two","matmul","result transposed","C50 product")
b("bl06","      B.set j i v) B","      B.set i j v) B","transpose","no transposition","C66 transpose")
b("bl07","if A.rows = B.cols ∧ A.cols = B.rows then","if A.rows = B.rows ∧ A.cols = B.cols then","transpose","wrong shape check","C66 transpose")
b("bl08","(if i = j then 1 else 0))","(if i = j then 0 else 1))","invert","right-hand side not the identity","C66 invert")
b("bl09","let x := K.getrs A.cols f.1 f.2.1 b.val","let x := K.getrs A.cols a.val f.2.1 b.val","invert","unfactored matrix passed to getrs","C66 invert")
b("bl10","      let v ← (⟨A.rows * A.cols, x.1⟩ : Arr ℝ).get (i + A.cols * j)\n      B.set i j v","      let v ← (⟨A.rows * A.cols, x.1⟩ : Arr ℝ).get (i + A.cols * j)\n      B.set j i v","invert","inverse transposed","C66 invert")
b("bl11","    pure (C, f.2.2, x.2)","    if f.2.2 = 0 then pure (C, f.2.2, x.2) else none","invert","exception not swallowed (repairs the code)","C66_invert_singular must fail")
b("bl12","y.set i (v + t * c)) y) y","y.set i (t * c)) y) y","gemv","accumulation dropped","C50 matvec")
json.dump(M,open("/tmp/mut7.json","w"))
