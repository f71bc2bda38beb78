import json
M=[]
T="Verif.Average.MainTheorems"
def e(id,old,new,d,edit,claim,f="Setup",target=T,**k):
    M.append(dict(id=id,file="Verif/Average/%s.lean"%f,old=old,new=new,edit=edit,claim=claim,target=target,**{"def":d},**k))
e("se01","⟨N + 1, q.ncStart⟩","⟨N, q.ncStart⟩","buildCells","start array of the node-to-cell lists one too short","C77 no out-of-bounds access")
e("se02","⟨C + 1, q.ccStart⟩","⟨C, q.ccStart⟩","buildCells","start array of the cell-to-cell lists one too short","C77 no out-of-bounds access")
e("se03","Key.key C N nodes x q.dist","Key.key C N nodes (fun n d => x n 0) q.dist","buildCells","patch keys from the x coordinate only","C77 boundary sets")
e("se04","if 0 < E then (buildCells E N nodes x q.init)","if 1 < E then (buildCells E N nodes x q.init)","setup","connectivity of one-cell meshes skipped","C77_single_negation")
e("se05","buildCells r.counts.numCells r.numNodes","buildCells E r.numNodes","setup","connectivity of the refined mesh for the number of elements","C77 boundary sets")
e("se06","(List.range boundary.length).map","(List.range (boundary.length - 1)).map","generateBcs","last condition not tagged","C77 boundary sets")
e("se07","boundary.getD i ⟨0, 0⟩))","boundary.getD 0 ⟨0, 0⟩))","generateBcs","always the first condition","C77 boundary sets")
e("se08","(initBdySets boundary.length b.size","(initBdySets (boundary.length - 1) b.size","generateBcs","one set too few","C77 no out-of-bounds access")
e("se09","cells := r.counts.numCells\n","cells := E\n","meshOf","number of elements as number of cells","C77 mesh")
e("se10","el.nodesInElem (i / r.counts.nodes) (i % r.counts.nodes)","el.nodesInElem (i % r.counts.nodes) (i / r.counts.nodes)","meshOf","indices of the element table swapped","C77 mesh")
e("se11","b.surface b.value)","b.surface (b.value + 1))","onBdy","plane shifted","C77 boundary sets")
e("se12","buildElems E r.counts.gPts r.numNodes r.counts.numCells","buildElems E r.counts.nodes r.numNodes r.counts.numCells","setup","nodes instead of Gauss points per element","C77 mesh")
e("se13","generateBcs c.patches r.x boundary","generateBcs c.patches x boundary","setup","boundary test with the coordinates of the initial mesh","C77 boundary sets")
e("se14","b.surface b.value)","(b.surface + 1) b.value)","onBdy","wrong direction of the plane","C77 boundary sets")
e("se15","  let r ← Refine.refineMesh E N p nodes x q.refine","  let r ← Refine.refineMesh E N (p + 1) nodes x q.refine","setup","order one too high","C77 cells per element")
m=dict(f="Main")
e("ma01","[⟨0, 0⟩, ⟨1, 0⟩, ⟨2, 0⟩, ⟨0, 2⟩","[⟨0, 2⟩, ⟨1, 0⟩, ⟨2, 0⟩, ⟨0, 0⟩","shippedBoundary","the two x planes swapped","C78 boundary values",**m)
e("ma02","⟨2, 0⟩, ⟨0, 2⟩, ⟨1, 2⟩","⟨2, 0⟩, ⟨0, 1⟩, ⟨1, 2⟩","shippedBoundary","plane x = 1 instead of x = 2","C78 boundary values",**m)
e("ma03","volume := .global, field2 := 0","volume := .global, field2 := 20","shippedFills","global fill with 20","C78 bounds",**m)
e("ma04","⟨1 / 2, 10 ^ 8, 10, 1 / 10, 3⟩","⟨1, 10 ^ 8, 10, 1 / 10, 3⟩","shippedSettings","TFINAL 1","C78 number of dumps",**m)
e("ma05","⟨1 / 2, 10 ^ 8, 10, 1 / 10, 3⟩","⟨1 / 2, 10 ^ 8, 20, 1 / 10, 3⟩","shippedSettings","dumps every 20 cycles","C78 number of dumps",**m)
e("ma06","⟨1 / 2, 10 ^ 8, 10, 1 / 10, 3⟩","⟨1 / 2, 10 ^ 8, 10, 1 / 10, 2⟩","shippedSettings","order 2","C78 number of cells",**m)
e("ma07","⟨1 / 2, 10 ^ 8, 10, 1 / 10, 3⟩","⟨1 / 2, 10 ^ 2, 10, 1 / 10, 3⟩","shippedSettings","100 cycles","C78 number of dumps",**m)
e("ma08","⟨m.cells, fun _ => 0⟩⟩","⟨m.cells - 1, fun _ => 0⟩⟩","program","cell field one too short","C78 no out-of-bounds access",**m)
e("ma09","⟨⟨m.nodes, fun _ => 0⟩, p.field⟩","⟨⟨m.nodes, fun _ => 11⟩, p.field⟩","program","nodal field starts at 11","C78 bounds (first dump has cells only; nodal field is overwritten each cycle)",**m)
e("ma10","shippedBoundary q\n","(shippedBoundary.take 3) q\n","program","only the first three conditions","C78 boundary values",**m)
T2="Verif.Average.FromFile"
def g(id,file,old,new,d,edit,claim,**k):
    M.append(dict(id=id,file=file,old=old,new=new,edit=edit,claim=claim,target=T2,**{"def":d},**k))
g("ff01","Verif/MeshFile/Model.lean","[0, 1, 3, 2, 4, 5, 7, 6].getD l 0","[0, 1, 2, 3, 4, 5, 6, 7].getD l 0","convIn","reader does not renumber the vertices","C79, C53")
g("ff02","Verif/MeshFile/Model.lean","a.set (c * 8 + l) (w - 1)","a.set (c * 8 + l) w","readCells","reader keeps one-based ids","C79, C53")
g("ff03","Verif/MeshFile/Model.lean","loopM 8 (fun _ s => skipLine s) s","loopM 7 (fun _ s => skipLine s) s","readMesh","one header line too few skipped","C79, C53")
g("ff04","Verif/MeshBox/Model.lean","b.len d / ((if d = 0 then b.pi else if d = 1 then b.pj else b.pk : ℕ) - 1)","b.len d / (if d = 0 then b.pi else if d = 1 then b.pj else b.pk : ℕ)","Box.step","spacing by points instead of cells","C79 face x = 2")
g("ff05","Verif/Average/FromFile.lean","program (m.cells.size / 8) m.coords.size","program m.cells.size m.coords.size","programFile","table length as number of cells","C79",same_file=True)
json.dump(M,open("/tmp/mut13.json","w"))
