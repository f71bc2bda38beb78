import json
M=[]
def a(id,old,new,d,edit,claim,target="Fill",**k):
    M.append(dict(id=id,file="Verif/Average/Model.lean",old=old,new=new,edit=edit,claim=claim,target="Verif.Average."+target,**{"def":d},**k))
def f(id,old,new,d,edit,claim,file="Model",**k):
    M.append(dict(id=id,file="Verif/MeshFile/%s.lean"%file,old=old,new=new,edit=edit,claim=claim,target="Verif.MeshFile.Theorems",**{"def":d},**k))
a("av01","  loopM 8 (fun l t => do\n    let n ← m.nodesInCell.get (c * 8 + l)\n    let v","  loopM 7 (fun l t => do\n    let n ← m.nodesInCell.get (c * 8 + l)\n    let v","cellAverage","one node too few","C54 average","Smooth")
a("av02","pure (t + v / 8)) 0","pure (t + v / 4)) 0","cellAverage","wrong divisor","C54 maximum principle","Smooth")
a("av03","pure (t + v / k)) 0","pure (t + v / 8)) 0","nodeAverage","divides by 8 on boundary nodes too","C54 maximum principle","Smooth")
a("av04","pure (t + v / k)) 0","pure (t + v / (k + 1))) 0","nodeAverage","off by one divisor","C54 constants preserved","Smooth")
a("av05","    let t ← nodeAverage m cell n\n    node.set n t) s.node\n  pure ⟨node, cell⟩\n\n/-- `smooth_element`","    let t ← nodeAverage m s.cell n\n    node.set n t) s.node\n  pure ⟨node, cell⟩\n\n/-- `smooth_element`","smoothCells","old cell field scattered","C54 value","Smooth")
a("av06","loopM m.cells (fun c cell => do","loopM (m.cells - 1) (fun c cell => do","smoothCells","last cell skipped","C54 value","Smooth")
a("av07","loopM m.elems (fun e => loopM m.nodesPerElem fun i node => do","loopM m.elems (fun e => loopM m.cellsPerElem fun i node => do","smoothElement","wrong loop bound for nodes","C54 element value","Cycle")
a("av08","m.cellsInElem.get (e * m.cellsPerElem + i)","m.cellsInElem.get (e + i)","smoothElement","stride dropped","C54 element value","Cycle")
a("av09","setBoundary m 3 0 s.node","setBoundary m 3 10 s.node","applyBoundary","wrong boundary value","C54 boundary","Cycle")
a("av10","setBoundary m 0 10 node","setBoundary m 1 10 node","applyBoundary","wrong boundary set","C54 boundary","Cycle")
a("av11","    loopM 4 (fun q node => do","    loopM 3 (fun q node => do","setBoundary","one patch node forgotten","C54 boundary","Cycle")
a("av12","    let s ← smoothElement m s\n    applyBoundary m s) s","    smoothElement m s) s","cycles","boundary condition not applied","C54 cycles","Cycle")
a("av13","  | .box => atBox false\n","  | .box => if x ≥ f.x1 ∧ x ≤ f.x2 ∧ y ≥ f.y1 ∧ y ≤ f.y2 ∧ z ≥ f.z1 ∧ z ≤ f.z2 then true else false\n","fillThis","a break added after box (repairs the code)","C55_box_negation must fail")
a("av14","y ≥ f.y1 ∧ y ≤ f.y2 ∧ z ≥","y ≥ f.y1 ∧ y ≤ f.x2 ∧ z ≥","fillThis","x2 used for y","C55 box region")
a("av15","let radiusCyl := Real.sqrt (x * x + y * y)","let radiusCyl := Real.sqrt (x * x + z * z)","fillThis","cylinder about the y axis","C55 cylinder region")
a("av16","if radius ≥ f.radius1 ∧ radius ≤ f.radius2 then true","if radius ≥ f.radius1 then true","fillThis","outer radius not tested","C55 sphere region")
a("av17","  | .global => atBox true","  | .global => atBox false","fillThis","global fill not taken","C55 global")
a("av18","let y ← cellCentre m c 1\n","let y ← cellCentre m c 0\n","initializeState","x used for y","C55 centre")
a("av19","s.field.set c f.field2","s.field.set c f.radius1","initializeState","wrong value stored","C55 value")
a("av20","pure (t / 8)","pure (t / 2)","cellCentre","wrong divisor","C55 centre")
a("av21","rkStage * cells * 3 + c * 3 + d","rkStage * cells + c * 3 + d","setCoord","stride of the stage","C55 material point coordinates")
f("mf01","[1, 0, 2, 3, 5, 4, 6, 7].getD","[0, 1, 3, 2, 4, 5, 7, 6].getD","convOut","inverse of the reader's order (repairs the code)","C53_restart_negation must fail")
f("mf02","[0, 1, 3, 2, 4, 5, 7, 6].getD","[0, 1, 2, 3, 4, 5, 6, 7].getD","convIn","no conversion","C53_box order")
f("mf03","pure (t ++ fmtD 10 (v + 1))) t\n","pure (t ++ fmtD 10 v)) t\n","writeBox","zero-based ids written","C53_box")
f("mf04","let a ← a.set (c * 8 + l) (w - 1)\n","let a ← a.set (c * 8 + l) w\n","readCells","ids not made zero-based","C53_box")
f("mf05","loopM 8 (fun _ s => skipLine s) s","loopM 7 (fun _ s => skipLine s) s","readMesh","one header line too few skipped","C53_box")
f("mf06","let s ← scanWord 20 r.2","let s ← scanWord 4 r.2","readMesh","buffer too small for the word","C53_box")
f("mf07","chars \"hexa8\\n\" ++ (fmtD 10 num_cells ++ ['\\n']))\n  loopM num_cells (fun c t => do\n    let t ← loopM 8 (fun l t => do\n      let v ← cells.get (c * 8 + l)","chars \"hexa 8\\n\" ++ (fmtD 10 num_cells ++ ['\\n']))\n  loopM num_cells (fun c t => do\n    let t ← loopM 8 (fun l t => do\n      let v ← cells.get (c * 8 + l)","writeBox","blank in the element name","C53_box")
f("mf08","pure (t ++ (fmtE rnd 12 (x d) ++ ['\\n']))) t","pure (t ++ (fmtE rnd 12 (x 0) ++ ['\\n']))) t","writeCoords","x written three times","C53 coordinates")
f("mf09","pure (t ++ (fmtE rnd 12 (x d) ++ ['\\n']))) t","pure (t ++ fmtE rnd 12 (x d))) t","writeCoords","no newline between numbers","C53 coordinates")
f("mf10","a.set (c * 8 + l) (tmp l)","a.set (c * 8 + convIn l) (tmp l)","convertCells","conversion applied twice","C53_box order")
f("mf11","let a ← s.1.set p (store row d x.1)","let a ← s.1.set p (store row 0 x.1)","readCoords","all directions stored in x","C53 coordinates")
f("mf12","let v ← s.1.get (c * 8 + convIn l)\n      pure (store tmp l v)","let v ← s.1.get (c * 8 + l)\n      pure (store tmp (convIn l) v)","convertCells","inverse permutation (convIn is an involution)","equivalent program: nothing is broken",equivalent=True)
json.dump(M,open("/tmp/mut6.json","w"))
