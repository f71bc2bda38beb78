import json
M=[]
def e(id,f,old,new,d,edit,claim,target,**k):
    M.append(dict(id=id,file="Verif/%s.lean"%f,old=old,new=new,edit=edit,claim=claim,target=target,**{"def":d},**k))
F="Fp/LUModel"; T="Verif.Fp.LUUnstable"
e("lur-16_01",F,"loop i (fun k sum => R.fl (sum - R.fl (a i k * a k j))) (a i j)","loop (i+1) (fun k sum => R.fl (sum - R.fl (a i k * a k j))) (a i j)","upperR","one term too many","C89",T)
e("lur-16_02",F,"R.fl (sum - R.fl (s.1 i k * s.1 k j))","R.fl (sum + R.fl (s.1 i k * s.1 k j))","lowerR","sign","C89",T)
e("lur-16_03",F,"if R.fl (vv i * |sum|) ≥ s.2.1","if R.fl (vv i * sum) ≥ s.2.1","lowerR","fabs dropped in the comparison","C89 (pivot non-zero column)",T)
e("lur-16_04",F,"(a, R.fl (vv i * |sum|), i) else","(a, s.2.1, i) else","lowerR","big not updated (last non-smaller row taken)","C89",T)
e("lur-16_05",F,"if a j j = 0 then store2 a j j (tinyR R) else a","a","fixPivotR","zero pivot not replaced","C89 (pivots non-zero)",T)
e("lur-16_06",F,"let temp := R.fl (1 / a j j)","let temp := a j j","scaleColR","multiplied by the pivot","C89",T)
e("lur-16_07",F,"loop (n - (j + 1)) (fun t a => store2 a (j + 1 + t) j","loop (n - (j + 2)) (fun t a => store2 a (j + 1 + t) j","scaleColR","last row not scaled","C89",T)
e("lur-16_08",F,"let parity := if imax ≠ j then -s.parity else s.parity","let parity := s.parity","columnR","parity not flipped","C89 (determinant)",T)
e("lur-16_09",F,"indx := store s.indx j imax","indx := store s.indx imax j","columnR","interchange recorded at the wrong place","C89",T)
e("lur-16_10",F,"let b := store b ip (b i)\n","","forwardR","right-hand side not permuted","C89 (solve)",T)
e("lur-16_11",F,"| none => (store b i sum, if sum ≠ 0 then some i else none)","| none => (store b i sum, if sum = 0 then some i else none)","forwardR","first non-zero test inverted","C89 (solve)",T)
e("lur-16_12",F,"let sum := loop (n - (i + 1)) (fun s sum => R.fl (sum - R.fl (a i (i + 1 + s) * b (i + 1 + s)))) (b i)","let sum := loop (n - (i + 2)) (fun s sum => R.fl (sum - R.fl (a i (i + 1 + s) * b (i + 1 + s)))) (b i)","backwardR","last term dropped","C89 (solve)",T)
e("lur-16_13",F,"store b i (R.fl (sum / a i i))","store b i sum","backwardR","not divided","C89 (solve)",T)
e("lur-16_14",F,"let col := store col j 1\n","let col := store col 0 1\n","invertR","always the first unit vector","C89 (invert)",T)
e("lur-16_15",F,"R.fl (res * a j j)","R.fl (res + a j j)","determR","trace instead of product","C89 (determinant)",T)
e("lur-16_16",F,"| none => { ret := 0, a := a","| none => { ret := 1, a := a","decomposR","zero row not reported","C89 (return value)",T)
e("lur-16_17",F,"R.fl (sum - R.fl (a i (ii + t) * b (ii + t)))","R.fl (sum - R.fl (a (ii + t) i * b (ii + t)))","forwardR","transposed factor","C89 (solve)",T)
e("lur-16_18",F,"let vv := if imax ≠ j then store s.vv imax (s.vv j) else s.vv","let vv := s.vv","columnR","scale factor not moved with the row","C89 (growth)","Verif.Fp.LUGrowth")
e("lur-16_19",F,"(a, R.fl (vv i * |sum|), i) else","(a, s.2.1, i) else","lowerR","big not updated","C89 (growth)","Verif.Fp.LUGrowth")
json.dump(M,open("/tmp/mut16.json","w"))
