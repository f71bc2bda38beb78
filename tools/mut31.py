import json
M=[]
def e(id,f,old,new,d,edit,claim,target,**k):
    M.append(dict(id=id,file="Verif/%s.lean"%f,old=old,new=new,edit=edit,claim=claim,target=target,**{"def":d},**k))
S="Geometry/CurvedSurface"; T="Verif.Geometry.CurvedSurface"
def g(i,old,new,d,ed,cl,**k): e("srf-31_%02d"%i,S,old,new,d,ed,cl,T,same_file=True,**k)
g(1,"v / N / N = 0 ∨ v / N / N = N - 1","v / N / N = 0","OnSurface","one side of the element may move","C115_volume")
g(2,"v % N = 0 ∨ v % N = N - 1","v % N = 0 ∨ v % N = N - 2","OnSurface","wrong layer fixed","C115_volume")
g(3,"v / N % N = 0 ∨ v / N % N = N - 1","v / N % N = 0 ∧ v / N % N = N - 1","OnSurface","two sides may move","C115_volume")
g(4,"OnSurface (RefElem.verts1D p) v → ∀ i < 3,","OnSurface (RefElem.verts1D p) v → ∀ i < 2,","SameSurface","third coordinate free","C115_volume")
g(5,"∀ v < RefElem.verts1D p ^ 3, OnSurface","∀ v < RefElem.verts1D p ^ 2, OnSurface","SameSurface","only the first layer of vertices","C115_volume")
S="Geometry/CurvedMesh"; T="Verif.Geometry.CurvedMesh"
def g(i,old,new,d,ed,cl,**k): e("msh-31_%02d"%i,S,old,new,d,ed,cl,T,same_file=True,**k)
g(1,"if d = 1 then b + k * N + a * N * N","if d = 1 then a + k * N + b * N * N","sideVert","order of the directions on side 1","C116_volume: the forms of sideVert")
g(2,"  inj : ∀ e₁ < m.elems, ∀ e₂ < m.elems, ∀ d < 3, ∀ e', nb e₁ d = some e' → nb e₂ d = some e' → e₁ = e₂\n","","Glued","two elements glued to the same side","C116_volume")
g(3,"  lt : ∀ e < m.elems, ∀ d < 3, ∀ e', nb e d = some e' → e' < m.elems\n","","Glued","glued to an element outside the mesh","C116_volume")
g(4,"      vertNode p m0 m e' (sideVert (RefElem.verts1D p) d 0 a b)\n","      vertNode p m0 m e' (sideVert (RefElem.verts1D p) d (RefElem.verts1D p - 1) a b)\n","Glued","upper sides glued to upper sides","C116_volume")
g(5,"      vertNode p m0 m e' (sideVert (RefElem.verts1D p) d 0 a b)\n","      vertNode p m0 m e' (sideVert (RefElem.verts1D p) d 0 b a)\n","Glued","sides glued with the wrong orientation","C116_volume")
g(6," ∨\n    ((∀ e' < m.elems, nb e' d ≠ some e) ∧ n = vertNode p m0 m e (sideVert (RefElem.verts1D p) d 0 a b))","","OuterNode","lower outer sides may move","C116_volume")
g(7,"  ∃ e < m.elems, ∃ d < 3, ∃ a < RefElem.verts1D p,","  ∃ e < m.elems, ∃ d < 2, ∃ a < RefElem.verts1D p,","OuterNode","outer sides in direction 2 may move","C116_volume")
g(8,"∃ b < RefElem.verts1D p,\n","∃ b < RefElem.verts1D p - 1,\n","OuterNode","one edge of outer sides may move","C116_volume")
V="Geometry/Model"
json.dump(M,open("/tmp/mut31.json","w"))
print(len(M))
