import json
M=[]
def e(id,f,old,new,d,edit,claim,target,**k):
    M.append(dict(id=id,file="Verif/%s.lean"%f,old=old,new=new,edit=edit,claim=claim,target=target,**{"def":d},**k))
F="Ieee/AverageModel"; T="Verif.Ieee.AverageTheorems"
def g(i,old,new,d,ed,cl,**k): e("iav-28_%02d"%i,F,old,new,d,ed,cl,T,**k)
g(1,"let q ← A.rnd (v / 8)","let q ← A.rnd (v / 7)","cellAverageI","wrong divisor","C108_bounds")
g(2,"let n ← m.nodesInCell.get (c * 8 + l)","let n ← m.nodesInCell.get (c * 8 + 0)","cellAverageI","first node only","C108_accuracy")
g(3,"  loopM 8 (fun l t => do","  loopM 7 (fun l t => do","cellAverageI","last node missing","C108_accuracy")
g(4,"let q ← A.rnd (v / k)","let q ← A.rnd (v / 8)","nodeAverageI","divisor 8 at the boundary","C108_accuracy")
g(5,"let c ← m.conn.cellsInNode n l","let c ← m.conn.cellsInNode n 0","nodeAverageI","first cell only","C108_accuracy")
g(6,"    let t ← nodeAverageI A m cell n","    let t ← nodeAverageI A m s.cell n","smoothElementI","old cell values used","C108_accuracy")
g(7,"    cell.set c t) s.cell","    cell.set i t) s.cell","smoothElementI","local index as global","C108_accuracy")
g(8,"    let s ← smoothElementI A m s\n    applyBoundary m s) s","    let s ← applyBoundary m s\n    smoothElementI A m s) s","cyclesI","boundary before smoothing","C108_accuracy")
g(9,"    let s ← smoothElementI A m s\n    applyBoundary m s) s","    smoothElementI A m s) s","cyclesI","boundary dropped","C108_accuracy")
F="Ieee/HexModel"; T="Verif.Ieee.HexTheorems"
def g(i,old,new,d,ed,cl,**k): e("ihx-28_%02d"%i,F,old,new,d,ed,cl,T,**k)
g(1,"A.rnd (1 / 12)","A.rnd (1 / 6)","twelfth","wrong factor","C109_volume")
g(2,"let verts := store s.1 (cCon l)","let verts := store s.1 l","hexVerts","node order not converted","C109_volume")
g(3,"(row3 (FNum.fin (p 0)) (FNum.fin (p 1)) (FNum.fin (p 2)))","(row3 (FNum.fin (p 0)) (FNum.fin (p 2)) (FNum.fin (p 1)))","hexVerts","y and z swapped","C109_volume")
g(4,"let node ← m.nodesInCell.get (c * 8 + l)\n    let p","let node ← m.nodesInCell.get l\n    let p","hexVerts","cell offset dropped","C109_volume")
g(5,"(hexVol A (fun l => t.1 l 0) (fun l => t.1 l 1) (fun l => t.1 l 2))","(hexVol A (fun l => t.1 l 0) (fun l => t.1 l 0) (fun l => t.1 l 2))","hexCell","y(l) = x(l)","C109_volume")
g(6,"(hexVol A (fun l => t.1 l 0) (fun l => t.1 l 1) (fun l => t.1 l 2))","(hexVol A (fun l => t.1 l 1) (fun l => t.1 l 0) (fun l => t.1 l 2))","hexCell","x and y swapped","C109_volume")
g(7,"let cell ← s.cell.set c (hexVol","let cell ← s.cell.set 0 (hexVol","hexCell","wrong cell written","C109_volume")
g(8,"loopM m.cells (hexCell A m) s","loopM (m.cells - 1) (hexCell A m) s","volHex","last cell missing","C109_volume")
g(9,"Geom.hexSum x y z * twelfth A","Geom.hexSum x y z + twelfth A","hexVol","sum for product","C109_volume")
g(10,"loopM 8 (fun l (s : (ℕ → ℕ → FNum A)","loopM 7 (fun l (s : (ℕ → ℕ → FNum A)","hexVerts","last vertex stays uninitialised","C109_volume")
e("ihx-28_11","Ieee/Expr","Option.bind a fun x => Option.bind b fun y => A.rnd (x * y)","Option.bind a fun x => Option.bind b fun y => some (A.fl (x * y))","Mul FNum","products never overflow","C109_overflow_negation",T)
e("ihx-28_12","Ieee/Expr","Option.bind a fun x => Option.bind b fun y => A.rnd (x + y)","Option.bind a fun x => Option.bind b fun y => some (A.fl (x + y))","Add FNum","sums never overflow","C109_overflow_negation",T)
json.dump(M,open('/tmp/mut28.json','w'))
