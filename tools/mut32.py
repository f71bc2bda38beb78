import json
M=[]
def e(id,f,old,new,d,edit,claim,target,**k):
    M.append(dict(id=id,file="Verif/%s.lean"%f,old=old,new=new,edit=edit,claim=claim,target=target,**{"def":d},**k))
S="Geometry/CurvedTurned"; T="Verif.Geometry.CurvedTurned"
def g(i,old,new,d,ed,cl,**k): e("trn-32_%02d"%i,S,old,new,d,ed,cl,T,same_file=True,**k)
g(1,"xor (xor sw f1) f2 = (s.2.2 == s'.2.2) ∧","xor (xor sw f1) f2 = (s.2.2 != s'.2.2) ∧","GluedAny","mirror images where rotations belong","C117_volume")
g(2,"xor (xor sw f1) f2 = (s.2.2 == s'.2.2) ∧","xor sw f1 = (s.2.2 == s'.2.2) ∧","GluedAny","second mirror not counted","C117_volume")
g(3,"∃ sw f1 f2 : Bool, xor (xor sw f1) f2 = (s.2.2 == s'.2.2) ∧","∃ sw f1 f2 : Bool,","GluedAny","elements may lie on the same side of the common side","C117_volume")
g(4,"s'.In m ∧ nb s' = some s ∧","s'.In m ∧","GluedAny","three sides glued together","C117_volume")
g(5,"    ∀ a < RefElem.verts1D p, ∀ b < RefElem.verts1D p,\n      sideNode","    ∀ a < RefElem.verts1D p, ∀ b < RefElem.verts1D p - 1,\n      sideNode","GluedAny","one edge of the sides not shared","C117_volume")
g(6,"(orient (RefElem.verts1D p - 1) sw f1 f2 a b).1 (orient","(orient (RefElem.verts1D p) sw f1 f2 a b).1 (orient","GluedAny","mirrored about the wrong point","C117_volume")
g(7,"(orient (RefElem.verts1D p - 1) sw f1 f2 a b).2","(orient (RefElem.verts1D p - 1) sw f1 f2 a b).1","GluedAny","second index of the partner wrong","C117_volume")
g(8,"(if s.2.2 then RefElem.verts1D p - 1 else 0) a b","(if s.2.2 then RefElem.verts1D p else 0) a b","sideNode","upper side one layer too far","C117_volume")
g(10,"∃ s, s.In m ∧ nb s = none ∧ ∃ a < RefElem.verts1D p,","∃ s, s.In m ∧ nb s = none ∧ s.2.2 = true ∧ ∃ a < RefElem.verts1D p,","OuterNodeAny","lower outer sides may move","C117_volume")
g(11,"∃ a < RefElem.verts1D p, ∃ b < RefElem.verts1D p, n = sideNode","∃ a < RefElem.verts1D p - 1, ∃ b < RefElem.verts1D p, n = sideNode","OuterNodeAny","an edge of outer sides may move","C117_volume")
S="Geometry/CurvedMesh"
e("trn-32_12",S,"if d = 1 then b + k * N + a * N * N","if d = 1 then a + k * N + b * N * N","sideVert","order of the directions on side 1","C117_volume: the forms of sideVert",T)
S="Swage/HighOrderConform"
e("trn-32_13",S,"def mirror (m : ℕ) (f : Bool) (u : ℕ) : ℕ := if f then m - u else u","def mirror (m : ℕ) (f : Bool) (u : ℕ) : ℕ := if f then u else m - u","mirror","mirror when not asked","C117_volume",T)
S="Geometry/CurvedBoxes"; T="Verif.Geometry.CurvedBoxes"
def g(i,old,new,d,ed,cl,**k): e("box-32_%02d"%i,S,old,new,d,ed,cl,T,same_file=True,**k)
g(1,"∀ c < 3, pos e' c = pos e c + if c = d then 1 else 0)","∀ c < 3, pos e' c = pos e c + if c = d then -1 else 0)","C116_boxes_partial","neighbour on the wrong side","C116_boxes_partial")
g(2,"∀ c < 3, pos e' c = pos e c + if c = d then 1 else 0)","∀ c < 3, pos e' c = pos e c + if c = d then 2 else 0)","C116_boxes_partial","neighbour two boxes away","C116_boxes_partial")
g(3,"∀ c < 3, pos e' c = pos e c + if c = d then 1 else 0)","pos e' d = pos e d + 1)","C116_boxes_partial","other coordinates of the neighbour free","C116_boxes_partial")
json.dump(M,open("/tmp/mut32.json","w"))
print(len(M))
S="Geometry/CurvedOuter"; T="Verif.Geometry.CurvedOuter"
def g(i,old,new,d,ed,cl,**k): e("out-32_%02d"%i,S,old,new,d,ed,cl,T,same_file=True,**k)
g(1,"xor (xor sw f1) f2 = (s.2.2 != (φ s).2.2) ∧","xor (xor sw f1) f2 = (s.2.2 == (φ s).2.2) ∧","SameOuter","mirror images where rotations belong","C118_volume")
g(2,"(φ s).In m' ∧ nb' (φ s) = none","(φ s).In m'","SameOuter","an outer side corresponds to an inner one","C118_volume")
g(3,"  inj : ∀ s, s.In m → nb s = none → ∀ t, t.In m → nb t = none → φ s = φ t → s = t\n","","SameOuter","two outer sides correspond to one","C118_volume")
g(4,"  surj : ∀ t, t.In m' → nb' t = none → ∃ s, s.In m ∧ nb s = none ∧ φ s = t\n","","SameOuter","the second mesh has more outer sides","C118_volume")
g(5,"∀ a < RefElem.verts1D p, ∀ b < RefElem.verts1D p, ∀ i < 3, m.coords","∀ a < RefElem.verts1D p, ∀ b < RefElem.verts1D p, ∀ i < 2, m.coords","SameOuter","third coordinate free","C118_volume")
g(6,"      m'.coords.val (sideNode p m0 m' (φ s)","      m'.coords.val (sideNode p m0 m' s","SameOuter","wrong side of the second mesh","C118_volume")
json.dump(M,open("/tmp/mut32.json","w"))
print(len(M))
