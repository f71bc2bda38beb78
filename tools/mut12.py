import json
M=[]
def e(id,old,new,d,edit,claim,f="Driver",target="Verif.Average.DriverTheorems",**k):
    M.append(dict(id=id,file="Verif/Average/%s.lean"%f,old=old,new=new,edit=edit,claim=claim,target=target,**{"def":d},**k))
e("dr01","if order = 0 then 1 else order * 2","order * 2","numSub","order 0 not special","C75 fields")
e("dr02","i + j * sub + k * sub * sub","i + j * sub + k * sub","elemColumn","wrong stride","C75 fields")
e("dr03","index + sub * sub * sub * e","index + sub * sub * e","elemColumn","wrong element stride","C75 fields")
e("dr04","s.2 * (-1)","s.2 * 1","cellFields","colour does not alternate","C75 fields")
e("dr05","elemColumn sub 2 e (e : ℝ) a","elemColumn sub 2 e 0 a","cellFields","element number constant","C75 fields")
e("dr06","fieldColumn m.cells 3 field a","fieldColumn m.cells 2 field a","cellFields","last column overwrites the element number","C75 fields")
e("dr07","(store (store (store row 0 (x 0)) 1 (x 1)) 2 (x 2))","(store (store (store row 0 (x 0)) 1 (x 2)) 2 (x 1))","vecFields","y and z swapped","C75 positions")
e("dr08","printTimes (r.id + 1) times","printTimes r.id times","ensight","last time not printed","C75 times")
e("dr09","r.times.set r.id r.time","r.times.set (r.id + 1) r.time","ensight","time stored one too far","C75 times")
e("dr10","id := r.id + 1, dumps","id := r.id, dumps","ensight","number not increased","C75 numbering")
e("dr11","if r.time ≥ cfg.tfinal then","if r.time > cfg.tfinal then","cycleLoop","one more cycle at TFINAL","C75 cycles")
e("dr12","if c % cfg.cycIval = 0 ∨","if c % cfg.cycIval = 1 ∨","cycleLoop","dump one cycle late","C75 dumps")
e("dr13","⟨0, 10 ^ 8, 0, ⟨250, jt⟩, s, []⟩","⟨0, cfg.dtIval, 0, ⟨250, jt⟩, s, []⟩","driver","graphics_time initialised from the interval (the defect repaired)","C75_interval_negation")
e("dr14","cycleLoop m cfg j1 j2 cfg.cycleStop 1 r","cycleLoop m cfg j1 j2 cfg.cycleStop 0 r","driver","cycle starts at 0","C75 dumps")
e("dr15","⟨250, jt⟩","⟨500, jt⟩","driver","larger array of times","C75_overflow_negation")
e("dr16","let s ← applyBoundary m s\n","let s ← pure s\n","cycleLoop","boundary not applied","C75 state")
e("dr17","  let r ← cycleLoop m cfg j1 j2 cfg.cycleStop 1 r\n  ensight m cfg j1 j2 r","  cycleLoop m cfg j1 j2 cfg.cycleStop 1 r","driver","last dump missing","C75 dumps")
e("dr18","r.dumps ++ [⟨r.id, f, v, l⟩]","[⟨r.id, f, v, l⟩]","ensight","only the last dump kept","C75 dumps")
e("dr19","elemColumn sub 1 e (s.2 : ℝ) s.1","elemColumn sub 1 0 (s.2 : ℝ) s.1","cellFields","element number missing in the colour loop","C75 fields")
e("dr20","else if cfg.cycIval = 0 then none\n","","cycleLoop","zero interval defined","C75_zero_negation")
c=dict(f="Vtu",target="Verif.Average.VtuTheorems")
e("vu01","l ++ [8 * (c + 1)]","l ++ [8 * c]","vtkWriter","offsets of the beginnings","C76",**c)
e("vu02","l ++ [31 * (c + 1)]","l ++ [30 * (c + 1)]","vtkWriter","face stream 30 long","C76",**c)
e("vu03","loop 8 (fun n l","loop 7 (fun n l","vtkWriter","last node missing","C76",**c)
e("vu04","(l ++ [4])) (l ++ [6]))","(l ++ [4])) l)","vtkWriter","number of faces missing","C76",**c)
e("vu05","l ++ [42]","l ++ [12]","vtkWriter","hexahedron type","C76",**c)
e("vu06","loop 6 (fun p l","loop 5 (fun p l","vtkWriter","last face missing","C76",**c)
e("vu07","nodeInPatchInCell nodes c p q","nodeInPatchInCell nodes c q p","vtkWriter","arguments swapped","C76",**c)
e("vu08","[nodes c n]","[nodes n c]","vtkWriter","arguments swapped","C76",**c)
M.append(dict(id="vu09",file="Verif/Swage/Patch.lean",old="[0,2,6,4,",new="[0,2,4,6,",edit="first face crossed",claim="C76",target="Verif.Average.VtuTheorems",**{"def":"patchNodeTable"}))
M.append(dict(id="vu10",file="Verif/Swage/Patch.lean",old="0,4,5,1, 2,6,7,3,",new="0,4,5,1, 0,4,5,1,",edit="-y face twice",claim="C76",target="Verif.Average.VtuTheorems",**{"def":"patchNodeTable"}))
json.dump(M,open("/tmp/mut12.json","w"),ensure_ascii=False)
