import json
M=[]
def e(id,f,old,new,d,edit,claim,target,**k):
    M.append(dict(id=id,file="Verif/%s.lean"%f,old=old,new=new,edit=edit,claim=claim,target=target,**{"def":d},**k))
L="Fp/LegendreModel"; T="Verif.Fp.LegendreDerTheorems"
e("lg-22_01",L,"R.fl (R.fl (2 * n) - 1) * X","R.fl (R.fl (2 * n) + 1) * X","evalShift","2n+1 for 2n-1","C99_eval",T)
e("lg-22_02",L,"R.fl (R.fl (n - 1) * evalShift X m)","R.fl (n * evalShift X m)","evalShift","n for n-1","C99_eval",T)
e("lg-22_03",L,"R.fl (R.fl (1 / n) *\n","R.fl (R.fl (1 / (n + 1)) *\n","evalShift","divided by n+1","C99_eval",T)
e("lg-22_04",L,"def eval (n : ℕ) (X : ℝ) : ℝ := evalShift R X (n + 1)","def eval (n : ℕ) (X : ℝ) : ℝ := evalShift R X n","eval","shifted order","C99_eval",T)
e("lg-22_05",L,"R.fl (c j * eval R j X))) 0","R.fl (c j * eval R j X))) 1","evalApprox","sum starts at 1","C99_approx",T)
e("lg-22_06",L,"let Pk := eval R k (X 2)\n    some (R.fl (R.fl (Pi * Pj) * Pk))","let Pk := eval R k (X 1)\n    some (R.fl (R.fl (Pi * Pj) * Pk))","elemBasis","wrong coordinate","C99_basis",T)
e("lg-22_07",L,"evalApprox R N (fun m => c (j * N + k * N * N + m)) (X 0)","evalApprox R N (fun m => c (j * N + k * N + m)) (X 0)","elemApprox","stride of k","C99_element",T)
e("lg-22_08",L,"store C (N + k) (evalApprox R N C (X 1))) C\n  evalApprox","store C k (evalApprox R N C (X 1))) C\n  evalApprox","elemApprox","work array overlap","C99_element",T)
e("lg-22_09",L,"then R.fl (R.fl (1 / 2 * R.fl (α + β)) + 1)","then R.fl (1 / 2 * R.fl (α + β))","ja","+1 dropped","C100_eval",T)
e("lg-22_10",L,"R.fl (R.fl (R.fl (n + α) - 1) * R.fl (R.fl (n + β) - 1))","R.fl (R.fl (n + α) * R.fl (R.fl (n + β) - 1))","jc","-1 dropped","C100_eval",T)
e("lg-22_11",L,"if n = 0 ∨ k > n then 0","if n = 0 ∨ k ≥ n then 0","jacobiEvalDer","boundary","C100_eval",T)
e("lg-22_12",L,"R.fl ((1 / 2) ^ k * tg","R.fl ((1 / 2) ^ n * tg","jacobiEvalDer","power of n","C100_eval",T)
e("lg-22_13",L,"jacobiEval R (n - k) (R.fl (α + k))","jacobiEval R n (R.fl (α + k))","jacobiEvalDer","order not reduced","C100_eval",T)
e("lg-22_14",L,"R.fl (c j * evalDer R tg j k X))) 0","R.fl (c j * evalDer R tg j 1 X))) 0","evalDerApprox","first derivatives only","C100_approx",T)
e("lg-22_15",L,"R.fl (R.fl (Pi * dPj) * Pk)","R.fl (R.fl (Pi * dPj) * Pj)","elemGradBasis","wrong factor","C100_basis",T)
e("lg-22_16",L,"lineEval R tg (l == 1) N C (X 1)","lineEval R tg (l == 0) N C (X 1)","elemGradApprox","wrong direction","C100_element",T)
e("lg-22_17",L,"store s.2 l (lineEval","store s.2 0 (lineEval","elemGradApprox","all stored in component 0","C100_element",T)
e("lg-22_18",L,"loop 3 (fun l (s : (ℕ → ℝ)","loop 2 (fun l (s : (ℕ → ℝ)","elemGradApprox","third component missed","C100_element",T)
e("lg-22_19",L,"R.fl (jc R α β (m + 1) * jacobiShift α β X m)","R.fl (jc R α β m * jacobiShift α β X m)","jacobiShift","index of c","C100_eval",T)
B="Fp/BoxModel"; T="Verif.Fp.BoxTheorems"
e("bx-22_01",B,"then b.pi else if d = 1 then b.pj else b.pk : ℕ) - 1)","then b.pi else if d = 1 then b.pj else b.pk : ℕ) - 0)","step","points instead of cells","C101_positive_partial",T)
e("bx-22_02",B,"R.fl (b.shift 1 + R.fl (j * step R b 1))","R.fl (b.shift 0 + R.fl (j * step R b 1))","pointLoop","wrong shift","C101_positive_partial",T)
e("bx-22_03",B,"R.fl (b.shift 2 + R.fl (k * step R b 2))","R.fl (b.shift 2 - R.fl (k * step R b 2))","pointLoop","mirrored","C101_order",T)
e("bx-22_04",B,"fun p d => R.fl (m.coords.val p d)","fun p d => R.fl (m.coords.val p 0)","readMesh","x for all","C101_positive_partial",T)
e("bx-22_05",B,"setZ a (getId i j k b.pi b.pj)","setZ a (getId i j k b.ci b.cj)","pointLoop","numbered as cells","C101_order",T)
X="MeshFile/Text"; T="Verif.Fp.BoxTheorems"
e("mf-22_01",X,"let m := rnd (|x| / (10 : ℝ) ^ (e - 5))","let m := rnd (x / (10 : ℝ) ^ (e - 5))","toSci","sign lost","C53/C101",T)
e("mf-22_02",X,"then ⟨decide (x < 0), 10 ^ 5, e + 1⟩","then ⟨decide (x < 0), 10 ^ 5, e⟩","toSci","carry lost","C53/C101",T)
json.dump(M,open('/tmp/mut22.json','w'))
import os
for m in M:
    s=open('/verif/lean/'+m['file']).read()
    if s.count(m['old'])!=1: print(m['id'],s.count(m['old']))
