import json
M=[]
def e(id,f,old,new,d,edit,claim,target,**k):
    M.append(dict(id=id,file="Verif/%s.lean"%f,old=old,new=new,edit=edit,claim=claim,target=target,**{"def":d},**k))
F="Fp/PatchModel"; T="Verif.Fp.PatchRotated"
e("pf-20_01",F,"min m (x n d)) (R.fl (10 ^ 64))","min m (x n d)) 0","coordMinR","starts at 0","C93 (indices relative to the minimum)",T)
e("pf-20_02",F,"max m (x n d)) (-R.fl (10 ^ 64))","max m (x n d)) (R.fl (10 ^ 64))","coordMaxR","starts at +1e64","C93",T)
e("pf-20_03",F,"min ((Refine.distLoopR R v junk).2 i) m) ((Refine","max ((Refine.distLoopR R v junk).2 i) m) ((Refine","cellDistMinR","largest distance","C93",T)
e("pf-20_04",F,"fun l d => x (nodes c l) d) junk) junk0","fun l d => x (nodes 0 l) d) junk) junk0","distMinR","first cell only","C93 (the size of the last cell decides)",T)
e("pf-20_05",F,"junk junk0) / 3)","junk junk0) / 2)","deltaR","bins a half of the distance","C93 (different faces of a cell)",T)
e("pf-20_06",F,"R.fl (R.fl (R.fl (coordMaxR R N x d - coordMinR R N x d) + R.fl (1 / 10 ^ 12)) / δ)","R.fl (R.fl (R.fl (coordMaxR R N x d - coordMinR R N x d) + R.fl (1 / 10 ^ 12)) / (2 * δ))","numBinsR","half as many bins","C93",T)
e("pf-20_07",F,"loop 4 (fun q s => R.fl (s + R.fl (x (nodeInPatchInCell nodes c p q) d / 4))) 0","loop 3 (fun q s => R.fl (s + R.fl (x (nodeInPatchInCell nodes c p q) d / 4))) 0","sideCoordR","last node missed","C93",T)
e("pf-20_08",F,"loop 4 (fun q s => R.fl (s + R.fl (x (nodeInPatchInCell nodes c p q) d / 4))) 0","loop 4 (fun q s => R.fl (s + R.fl (x (nodeInPatchInCell nodes c q p) d / 4))) 0","sideCoordR","swapped arguments","C93 (also the aligned faces)",T)
e("pf-20_09",F,"loop 4 (fun q s => R.fl (s + R.fl (x (nodeInPatchInCell nodes c p q) d / 4))) 0","loop 4 (fun q s => R.fl (s + R.fl (x (nodeInPatchInCell nodes c p q) d / 4))) (c : ℝ)","sideCoordR","sum not reset","C93",T)
e("pf-20_10",F,"max (R.fl (1 / 10 ^ 16)) (R.fl","max (R.fl 2) (R.fl","hashIdxR","lower bound 2","C93 (faces near the boundary)",T)
e("pf-20_11",F,"sideCoordR R nodes x c p d - coordMinR R N x d","sideCoordR R nodes x c p d","hashIdxR","minimum not subtracted","C93",T)
e("pf-20_12",F,"R.fl (hashIdxR R N nodes x δ c p 1 * numBinsR R N x δ 0)","R.fl (hashIdxR R N nodes x δ c p 1)","hash1R","stride dropped","C93",T)
e("pf-20_13",F,"* numBinsR R N x δ 1))","* numBinsR R N x δ 0))","hash1R","wrong stride","C93 on grids that are longer in y than in x",T)
e("pf-20_14",F,"(e / 6) (e % 6)⌋₊","(e / 6) (e % 5)⌋₊","keyR","wrong modulus","C93",T)
e("pf-20_15",F,"⌊hash1R R N","⌊(1 / 2 : ℝ) * hash1R R N","keyR","key halved","C93 (different faces)",T)
e("pf-20_16","Swage/Patch","[0,2,6,4, 1,3,7,5,","[0,2,6,4, 1,5,7,3,","patchNodeTable","opposite faces listed in opposite directions","C93 (aligned faces are added in the same order)",T)
json.dump(M,open("/tmp/mut20.json","w"))
