import json
M=[]
def e(id,f,old,new,d,edit,claim,target,**k):
    M.append(dict(id=id,file="Verif/%s.lean"%f,old=old,new=new,edit=edit,claim=claim,target=target,**{"def":d},**k))
F="Int32/Model"; T="Verif.Int32.High"
e("ki-17_01",F,"if n < 2 ^ 31 then some n else none","if n < 2 ^ 32 then some n else none","int32","unsigned range","C90",T)
e("ki-17_02",F,"if r < 2 ^ 31 then some ⌊r⌋₊ else none","if r < 2 ^ 31 then some ⌈r⌉₊ else none","toInt","rounds up","C90",T)
e("ki-17_03",F,"(mx d - mn d + 1 + 1 / 10 ^ 14) / h","(mx d - mn d + 1 / 10 ^ 14) / h","bins32","+1 dropped","C90",T)
e("ki-17_04",F,"(y d - mn d + 1 / 10 ^ 14) / h","(y d - mn d) / h","index32","offset dropped","C90",T)
e("ki-17_05",F,"let e ← int32 (c * by_)","let e ← int32 (c * bx)","combine32","num_x squared","C90",T)
e("ki-17_06",F,"let a ← int32 (j * bx)","let a ← int32 (i * bx)","combine32","i for j","C90",T)
e("ki-17_07",F,"  let i ← index32 mn h y 0\n","  let i ← index32 mn h y 1\n","key32","y index twice","C90",T)
e("ki-17_08",F,"pure (a, max s.2 k)","pure (a, k)","fillKeys","last key instead of the largest","C90",T)
e("ki-17_09",F,"let a ← s.1.set i k","let a ← s.1.set 0 k","fillKeys","always the first slot","C90",T)
e("ki-17_10",F,"  let by_ ← bins32 mn mx h 1\n","  let by_ ← bins32 mn mx h 2\n","keys32","z bins for y bins","C90",T)
e("ki-17_11",F,"  let K ← int32 (G * E)\n  let lob ← Quad.lobatto_nodes_1D n ⟨n, q.lob⟩\n  let g ← Refine","  let K ← int32 G\n  let lob ← Quad.lobatto_nodes_1D n ⟨n, q.lob⟩\n  let g ← Refine","refineMesh32","only the Gauss points of one element","C90",T)
e("ki-17_12",F,"let ks ← keys32 (Refine.posMin N x) (Refine.posMax N x) h K g.2 ⟨K, jk⟩\n  let sz ← int32 (ks.2 + 10)","let ks ← keys32 (Refine.posMin N x) (Refine.posMax N x) h K g.2 ⟨K, jk⟩\n  let sz ← int32 ks.2","refineMesh32","table one slot short","C90",T)
e("ki-17_13",F,"let ks ← keys32 (HighOrder.posMin N x) (HighOrder.posMax N x) h","let ks ← keys32 (HighOrder.posMin N x) (HighOrder.posMax N x) (2 * h)","refineHighOrder32","bins twice as large","C90",T)
e("ki-17_14",F,"let K ← int32 (C * 6)","let K ← int32 (C * 5)","buildPatches32","one side forgotten","C90",T)
e("ki-17_15",F,"(e / 6) (e % 6))) ⟨K, jkey⟩","(e % 6) (e / 6))) ⟨K, jkey⟩","buildPatches32","cell and side exchanged","C90",T)
e("ki-17_16",F,"let δ := Key.delta C nodes x junk junk0\n","let δ := 1000 * Key.delta C nodes x junk junk0\n","buildPatches32","coarser hash","C90",T)
e("ki-17_17",F,"  let s ← int32 (i + a)\n","  let s := i + a\n","combine32","one sum unchecked (harmless: bounded by the last sum)","C90",T)
e("ki-17_18",F,"if r < 2 ^ 31 then some ⌊r⌋₊ else none","some ⌊r⌋₊","toInt","conversions unchecked","C90 (patches)",T)
json.dump(M,open("/tmp/mut17.json","w"))
