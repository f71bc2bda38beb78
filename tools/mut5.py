import json
M=[]
def m(id,old,new,d,edit,claim,target="Theorems",**k):
    M.append(dict(id=id,file="Verif/MeshBox/Model.lean",old=old,new=new,edit=edit,claim=claim,target="Verif.MeshBox."+target,**{"def":d},**k))
m("mb01","i + j * ni + k * ni * nj","i + j * ni + k * nj * nj","getId","wrong stride of k","C52 numbering")
m("mb02","(getId i j k b.pi b.pj)\n    (row3","(getId i j k b.ci b.cj)\n    (row3","pointLoop","cell strides used for points","C52 points")
m("mb03","b.shift 1 + j * b.step 1","b.shift 1 + j * b.step 0","pointLoop","dx used for y","C52 coordinates")
m("mb04","else b.pk : ℕ) - 1)","else b.pk : ℕ))","Box.step","length divided by the number of points","C52 coordinates")
m("mb05","[0, 1, 3, 2, 4, 5, 7, 6].getD l 0","[0, 1, 2, 3, 4, 5, 6, 7].getD l 0","convert","no conversion to Ensight order","C52 cell points order")
m("mb06","(getId (i + ii : ℕ) (j + jj : ℕ) (k + kk : ℕ) b.pi b.pj)","(getId (i + ii : ℕ) (j + jj : ℕ) (k + kk : ℕ) b.ci b.cj)","cellPoints","cell strides used for points","C52 cell points")
m("mb07","pure (a, s.2 + 1)) (a, 0)","pure (a, s.2)) (a, 0)","cellPoints","local counter not advanced","C52 cell points")
m("mb08","(i * b.step 0 + b.step 0 / 2)","(i * b.step 0)","cellLoop","half cell dropped from the centre","C52 centres")
m("mb09","[3, 4, 5, 0, 1, 2].getD f 0","[3, 5, 4, 0, 1, 2].getD f 0","faceFace","opposite faces of j and k swapped","C52 cell faces")
m("mb10","if 0 ≤ x ∧ x < n then setZ","if 0 ≤ x ∧ x ≤ n then setZ","faceOfCell","one past the last cell accepted","C52 cell faces")
m("mb11","if 0 ≤ x ∧ x < n then setZ","if x < n then setZ","faceOfCell","negative index accepted","C52 cell faces")
m("mb12","pure ⟨p, q, a, s.id + 1⟩","pure ⟨p, q, a, s.id⟩","faceBlock","face counter not advanced","C52 faces")
m("mb13","let q ← s.cell.set (s.id * 2 + 1) c\n  let q ← q.set (s.id * 2 + 0) c2","let q ← s.cell.set (s.id * 2 + 0) c\n  let q ← q.set (s.id * 2 + 1) c2","faceBlock","sides of the face swapped","C52 sides")
m("mb14","(getId i (j + 1) k b.pi b.pj) (getId i (j + 1) (k + 1) b.pi b.pj)\n      (getId i j (k + 1) b.pi b.pj) i","(getId i j (k + 1) b.pi b.pj) (getId i (j + 1) (k + 1) b.pi b.pj)\n      (getId i (j + 1) k b.pi b.pj) i","faceI","face traversed in the other sense","C52 orientation")
m("mb15","if j < b.pj - 1 ∧ k < b.pk - 1 then","if j < b.pj ∧ k < b.pk - 1 then","faceI","one face too many","C52 faces")
m("mb16","(getId i ((j : ℤ) - 1) k b.ci b.cj) 1 s","(getId i ((j : ℤ) - 1) k b.ci b.cj) 2 s","faceJ","wrong local face number","C52 cell faces")
m("mb17","(getId (i + 1) j k b.pi b.pj) j b.cj","(getId (i + 1) j k b.pi b.pj) j b.ci","faceJ","wrong bound on the direction","C52 cell faces")
m("mb18","(getId i j ((k : ℤ) - 1) b.ci b.cj) 2 s","(getId i j ((k : ℤ) - 1) b.pi b.pj) 2 s","faceK","point strides used for the cell","C52 sides")
m("mb19","let s ← faceJ b i j k s\n    faceK b i j k s","faceK b i j k s","faceLoop","j faces forgotten","C52 faces")
m("mb20","4 * ((b.pk : ℤ) - 2) + 8","4 * ((b.pk : ℤ) - 2)","Box.bdyPoints","corners forgotten","C52 boundary points")
m("mb21","(b.pi - 1) * b.pj * (b.pk - 1)","(b.pi - 1) * (b.pj - 1) * (b.pk - 1)","Box.faces","j faces undercounted","C52 face count (overflow)")
json.dump(M,open("/tmp/mut5.json","w"))
