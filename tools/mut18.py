import json
M=[]
def e(id,f,old,new,d,edit,claim,target,**k):
    M.append(dict(id=id,file="Verif/%s.lean"%f,old=old,new=new,edit=edit,claim=claim,target=target,**{"def":d},**k))
F="Swage/World"; T="Verif.Swage.WorldTheorems"
e("wo-18_01",F,"⟨⟨n * 3 * 3, q.jac⟩, ⟨n * 3 * 3, q.inv⟩, ⟨n, q.det⟩⟩","⟨⟨n * 3 * 3, q.jac⟩, ⟨n * 3, q.inv⟩, ⟨n, q.det⟩⟩","alloc","inverse one dimension short","C91",T)
e("wo-18_02",F,"{ m with numG := m.numElem * m.gInElem, nig","{ m with numG := m.numElem + m.gInElem, nig","initGauss","sum for product","C91",T)
e("wo-18_03",F,"nig := ⟨m.numElem * m.gInElem, qn⟩","nig := ⟨m.gInElem, qn⟩","initGauss","node list of one element","C91",T)
e("wo-18_04",F,"numGPatch := m.numElem * m.patchPtsInElem, patchPt := alloc (m.numElem * m.patchPtsInElem) q","numGPatch := m.numElem * m.patchPtsInElem, patchPt := alloc m.patchPtsInElem q","initGaussPatch","state of one element","C91",T)
e("wo-18_05",F,"{ m with cellPt := alloc m.numCells q }","{ m with cellPt := alloc m.numElem q }","initGaussCell","elements for cells","C91",T)
e("wo-18_06",F,"upd (upd w g (initGaussPatch qp)) g (initGaussCell qc)","upd w g (initGaussPatch qp)","buildPatch","cell points forgotten","C91",T)
e("wo-18_07",F,"def buildPatch (g _a : ι) (qp qc : Junk K) (w : ι → Mesh K) : ι → Mesh K :=\n  upd (upd w g (initGaussPatch qp)) g (initGaussCell qc)","def buildPatch (_g a : ι) (qp qc : Junk K) (w : ι → Mesh K) : ι → Mesh K :=\n  upd (upd w a (initGaussPatch qp)) a (initGaussCell qc)","buildPatch","the repaired program (negations become false)","C91 negations",T)
e("wo-18_08",F,"a (initCells (E * Refine.sub1d p ^ 3))) a (initGauss","a (initCells E)) a (initGauss","refine","number of cells not refined","C91",T)
e("wo-18_09",F,"(initElement p 3 E)) a (initCells","(initElement p 2 E)) a (initCells","refine","two-dimensional element","C91",T)
e("wo-18_10",F,"| .det => pt | _ => pt * 3 * 3 + i * 3 + j","| .det => pt | _ => pt * 3 + i * 3 + j","slot","stride 3 for 9","C91",T)
e("wo-18_11",F,"| .det => pt | _ => pt * 3 * 3 + i * 3 + j","| .det => pt | _ => pt * 3 * 3 + i * 3 + i","slot","swapped argument","C91",T)
e("wo-18_12",F,"  | .gauss => { m with pt := s } | .patch => { m with patchPt := s }","  | .gauss => { m with pt := s } | .patch => { m with cellPt := s }","Mesh.put","writes the cell state","C91",T)
e("wo-18_13",F,"| .jac => { s with jac := a } | .inv => { s with inv := a }","| .jac => { s with jac := a } | .inv => { s with jac := a }","PtState.put","inverse overwrites the matrix","C91",T)
e("wo-18_14",F,"fun b => if b = a then f (w a) else w b","fun b => if b = a then f (w a) else f (w b)","upd","shared state","C91",T)
e("wo-18_15",F,"| .gauss a qn q, w => some (upd w a (initGauss qn q))","| .gauss _ qn q, w => some (upd w g (initGauss qn q))","Op.run","Gauss points of the global mesh","C91",T)
e("wo-18_16",F,"gInElem := c.gPts, patchPtsInElem := c.patches","gInElem := c.patches, patchPtsInElem := c.gPts","initElement","counts exchanged","C91",T)
e("wo-18_17",F,"{ m with cellPt := alloc m.numCells q }","{ m with cellPt := alloc m.numCells q, numGCell := m.numCells }","initGaussCell","the repaired program (count)","C91 negation",T)
json.dump(M,open("/tmp/mut18.json","w"))
