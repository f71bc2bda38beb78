import json
M=[]
def e(id,f,old,new,d,edit,claim,target,**k):
    M.append(dict(id=id,file="Verif/%s.lean"%f,old=old,new=new,edit=edit,claim=claim,target=target,**{"def":d},**k))
F="Fp/RefineModel"; T="Verif.Fp.RefineGridFp"
e("rf-19_01",F,"[-1, R.fl (R.fl (-1 / 7) * R.fl √21), 0,","[-1, R.fl (R.fl (1 / 7) * R.fl √21), 0,","lobNodesR","sign of a reference point lost","C92",T)
e("rf-19_02",F,"if q < 0 then -R.fl ((-q : ℚ) : ℝ) else R.fl (q : ℝ)","if q < 0 then R.fl ((-q : ℚ) : ℝ) else R.fl (q : ℝ)","lobNodesR","minus sign of literals dropped","C92",T)
e("rf-19_03",F,"R.fl (R.fl (R.fl (R.fl (1 / 8) * R.fl (1 + R.fl (tempPts L i j k 0 * refVert v 0)))","R.fl (R.fl (R.fl (R.fl (1 / 8) * R.fl (1 - R.fl (tempPts L i j k 0 * refVert v 0)))","basisR","wrong sign in a factor","C92",T)
e("rf-19_04",F,"R.fl (1 + R.fl (tempPts L i j k 1 * refVert v 1))","R.fl (1 + R.fl (tempPts L i j k 2 * refVert v 1))","basisR","swapped direction","C92",T)
e("rf-19_05",F,"loop 8 (fun v s => R.fl (s + R.fl (b v * xs v))) 0","loop 7 (fun v s => R.fl (s + R.fl (b v * xs v))) 0","gPointR","last vertex missed","C92",T)
e("rf-19_06",F,"loop 8 (fun v s => R.fl (s + R.fl (b v * xs v))) 0","loop 8 (fun v s => R.fl (b v * xs v)) 0","gPointR","assignment for accumulation","C92",T)
e("rf-19_07",F,"loop 8 (fun v s => R.fl (s + R.fl (b v * xs v))) 0","loop 8 (fun v s => R.fl (s + R.fl (b v * R.fl (xs v + R.fl (1 / 10 ^ 3))))) 0","gPointR","coordinates offset by 1e-3","C92",T)
e("rf-19_08",F,"min m (x n d)) (R.fl (10 ^ 16))","min m (x n d)) 0","posMinR","starts at 0","C92 (indices relative to the minimum)",T)
e("rf-19_09",F,"max m (x n d)) (-R.fl (10 ^ 16))","max m (x n d)) (R.fl (10 ^ 16))","posMaxR","maximum starts at +1e16","C92",T)
e("rf-19_10",F,"R.fl (v b 1 - v a 1) * R.fl (v b 1 - v a 1)","R.fl (v b 1 - v a 0) * R.fl (v b 1 - v a 1)","dist1R","wrong component","C92",T)
e("rf-19_11",F,"min ((distLoopR R v junk).2 i) m) (R.fl (10 ^ 64))","max ((distLoopR R v junk).2 i) m) 0","cellDistR","largest distance","C92",T)
e("rf-19_12",F,"R.fl (dm / R.fl (7 * if p = 0 then 1 else (p : ℝ)))","R.fl (dm / R.fl (3 * if p = 0 then 1 else (p : ℝ)))","hashDistR","bins too wide","C92",T)
e("rf-19_13",F,"R.fl (R.fl (R.fl (R.fl (posMaxR R N x d - posMinR R N x d) + 1) + R.fl (1 / 10 ^ 14)) / h)","R.fl (R.fl (R.fl (posMaxR R N x d - posMinR R N x d) + R.fl (1 / 10 ^ 14)) / h)","binsR","one bin short","C92 (keys of different planes)",T)
e("rf-19_14",F,"R.fl (R.fl (R.fl (y d - posMinR R N x d) + R.fl (1 / 10 ^ 14)) / h)","R.fl (R.fl (R.fl (y d - posMinR R N x d) + R.fl (1 / 10 ^ 2)) / h)","indexR","large offset","C92",T)
e("rf-19_15",F,"indexR R N x h y 1 * binsR R N x h 0 +","indexR R N x h y 1 +","keyR","stride dropped","C92",T)
e("rf-19_16",F,"indexR R N x h y 2 * binsR R N x h 0 * binsR R N x h 1","indexR R N x h y 2 * binsR R N x h 0 * binsR R N x h 0","keyR","wrong stride","C92",T)
e("rf-19_17",F,"s.2.set s.1 (fun d => gPointR R (basisR R L i j k)","s.2.set s.1 (fun d => gPointR R (basisR R L k j i)","gaussPointsR","indices swapped","C92",T)
e("rf-19_18",F,"let r ← nodeLoop E S n w.nig (0,","let r ← nodeLoop E S n ⟨w.nig.size, fun i => w.nig.val (i + 1)⟩ (0,","finish","node table shifted","C92, C42",T)
e("rf-19_19",F,"finish E p g.2 (fun i => keyR R N x h (g.2.val i)) q","finish E p g.2 (fun i => keyR R N x h (g.2.val (i - 1))) q","refineMeshR","keys of the neighbour point","C92",T)
json.dump(M,open("/tmp/mut19.json","w"))
