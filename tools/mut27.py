import json
M=[]
def e(id,f,old,new,d,edit,claim,target,**k):
    M.append(dict(id=id,file="Verif/%s.lean"%f,old=old,new=new,edit=edit,claim=claim,target=target,**{"def":d},**k))
F="Fp/HexNModel"; T="Verif.Fp.HexNTheorems"
def g(i,old,new,d,ed,cl,**k): e("fhx-27_%02d"%i,F,old,new,d,ed,cl,T,**k)
g(1,"let num := if j ≠ i then R.fl (s.1 * R.fl (x - z j)) else s.1","let num := R.fl (s.1 * R.fl (x - z j))","basisStep","j != i test dropped","C107_basis1d",nth=0)
g(2,"let den := if j ≠ i then R.fl (s.2.1 * R.fl (z i - z j)) else s.2.1","let den := if j ≠ i then R.fl (s.2.1 * R.fl (z j - z i)) else s.2.1","basisStep","difference reversed","C107_basis1d",nth=0)
g(3,"(num, den, R.fl (num / den))","(num, den, R.fl (den / num))","basisStep","quotient inverted","C107_basis1d")
g(4,"if N ≠ j ∧ N ≠ i then R.fl (p * R.fl (x - z N)) else p","if N ≠ j then R.fl (p * R.fl (x - z N)) else p","productGradient","N != i dropped","C107_der1d")
g(5,"let ng := if j ≠ i then R.fl (s.2.1 + productGradient R n z x i j) else s.2.1","let ng := R.fl (s.2.1 + productGradient R n z x i j)","derivStep","j != i dropped","C107_der1d")
g(6,"let ng := if j ≠ i then R.fl (s.2.1 + productGradient R n z x i j) else s.2.1","let ng := if j ≠ i then productGradient R n z x i j else s.2.1","derivStep","= instead of +=","C107_der1d")
g(7,"R.fl (R.fl (s.2 i 0 * s.2 j 1) * s.2 k 2)","R.fl (R.fl (s.2 i 0 * s.2 k 1) * s.2 j 2)","basis","j and k swapped","C107_hexn_basis")
g(8,"let v := lagrangeBasis1D R n z (pt 1) s.1\n  let s := Verif.HexN.saveColumn n 1 v s.2\n  let v","let v := lagrangeBasis1D R n z (pt 0) s.1\n  let s := Verif.HexN.saveColumn n 1 v s.2\n  let v","basis","point(0) used twice","C107_hexn_basis",nth=0)
g(9,"R.fl (R.fl (ds.2 i 0 * s.2 j 1) * s.2 k 2)","R.fl (R.fl (s.2 i 0 * s.2 j 1) * s.2 k 2)","partialXi","value instead of derivative","C107_hexn_partials")
g(10,"R.fl (R.fl (s.2 i 0 * ds.2 j 1) * s.2 k 2)","R.fl (R.fl (s.2 j 0 * ds.2 i 1) * s.2 k 2)","partialEta","indices swapped","C107_hexn_partials")
g(11,"let ds := Verif.HexN.saveColumnOther n 2 dv s.1 dt","let ds := Verif.HexN.saveColumnOther n 1 dv s.1 dt","partialMu","wrong column","C107_hexn_partials")
g(12,"let dv := lagrangeDerivative1D R n z (pt 2) dv","let dv := lagrangeBasis1D R n z (pt 2) dv","partialMu","value instead of derivative","C107_hexn_partials")
g(13,"(num, den, R.fl (num / den), p, R.fl (p / den))","(num, den, R.fl (num / den), p, R.fl (p / num))","quadStep","wrong denominator","C107_quadn")
g(14,"let i := (m + 1) - n * (j - 1)","let i := (m + 1) - n * j","quadBody","row offset","C107_quadn")
g(15,"basis := store s.basis m (R.fl (val2 m 0 * val2 m 1))","basis := store s.basis m (R.fl (val2 m 0 + val2 m 1))","quadBody","sum for product","C107_quadn")
g(16,"store2 (store2 s.part m 0 (R.fl (dval2 m 0 * val2 m 1)))","store2 (store2 s.part m 0 (R.fl (dval2 m 0 * dval2 m 1)))","quadBody","mixed derivative","C107_quadn")
g(17,"loop (n * n) (quadBody R n z pt) s","loop (n * n - 1) (quadBody R n z pt) s","quadBasisPartials","last vertex missing","C107_quadn")
g(18,"store p d (R.fl (p d + R.fl (nodes v d * b v)))","store p d (R.fl (nodes v d * b v))","quadPhysicalPosition","= for +=","C107_quadn_position")
g(19,"store p d (R.fl (p d + R.fl (nodes v d * b v)))","store p d (R.fl (p d + R.fl (nodes v 0 * b v)))","quadPhysicalPosition","dimension 0 only","C107_quadn_position")
g(20,"R.fl (R.fl (s.2 i 0 * s.2 j 1) * s.2 k 2)) b","R.fl (R.fl (s.2 i 0 * s.2 j 1) + s.2 k 2)) b","basis","sum for product","C107_hexn_nodal",nth=0)
json.dump(M,open('/tmp/mut27.json','w'))
