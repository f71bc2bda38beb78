import json
M=[]
def e(id,f,old,new,d,edit,claim,target,**k):
    M.append(dict(id=id,file="Verif/%s.lean"%f,old=old,new=new,edit=edit,claim=claim,target=target,**{"def":d},**k))
S="Geometry/CurvedSkin"; T="Verif.Geometry.CurvedSkin"
def g(i,old,new,d,ed,cl,**k): e("skn-33_%02d"%i,S,old,new,d,ed,cl,T,same_file=True,**k)
g(1,"xor (xor sw f1) f2 = (s.2.2 != (φ s).2.2) ∧","xor (xor sw f1) f2 = (s.2.2 == (φ s).2.2) ∧","SameSkin","mirror images where rotations belong","C119_volume")
g(2,"(φ s).In m' ∧ nb' (φ s) = none","(φ s).In m'","SameSkin","an outer side corresponds to an inner one","C119_volume")
g(3,"  inj : ∀ s, s.In m → nb s = none → ∀ t, t.In m → nb t = none → φ s = φ t → s = t\n","","SameSkin","two outer sides correspond to one","C119_volume")
g(4,"  surj : ∀ t, t.In m' → nb' t = none → ∃ s, s.In m ∧ nb s = none ∧ φ s = t\n","","SameSkin","the second mesh has more outer sides","C119_volume")
g(5,"∀ v ∈ Set.Icc (-1 : ℝ) 1, ∀ i < 3, polyAt p (co s.1 i)","∀ v ∈ Set.Icc (-1 : ℝ) 1, ∀ i < 2, polyAt p (co s.1 i)","SameSkin","third coordinate free","C119_volume")
g(6,"∀ u ∈ Set.Icc (-1 : ℝ) 1, ∀ v ∈ Set.Icc (-1 : ℝ) 1, ∀ i < 3, polyAt","∀ u ∈ ({-1, 1} : Set ℝ), ∀ v ∈ ({-1, 1} : Set ℝ), ∀ i < 3, polyAt","SameSkin","only the corners of the sides agree","C119_volume")
g(7,"if c = d then (if up then 1 else -1) else if c = (d + 1) % 3 then u else v","if c = d then (if up then 1 else -1) else if c = (d + 2) % 3 then u else v","sidePt","order of the two directions","restr: biv_restr")
g(8,"if c = d then (if up then 1 else -1) else if c = (d + 1) % 3 then u else v","if c = d then (if up then 1 else 0) else if c = (d + 1) % 3 then u else v","sidePt","lower side in the middle of the element","C119_volume")
g(9,"(sg f1 * if sw then v else u) (sg f2 * if sw then u else v))\n","(sg f1 * if sw then v else u) (sg f1 * if sw then u else v))\n","SameSkin","second mirror not used","C119_volume")
json.dump(M,open("/tmp/mut33.json","w"))
print(len(M))
