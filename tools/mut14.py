import json
M=[]
def e(id,f,old,new,d,edit,claim,target,**k):
    M.append(dict(id=id,file="Verif/%s.lean"%f,old=old,new=new,edit=edit,claim=claim,target=target,**{"def":d},**k))
F="Verif.Vtk.FileTheorems"; D="Verif.DetJac.ProgramTheorems"; S="Verif.Shape.Select"
e("vf01","Vtk/File","    | some i => some (i + 1)\n    | none => if x = c then some 0 else none","    | some i => if x = c then some 0 else some (i + 1)\n    | none => if x = c then some 0 else none","findLastOf","first dot instead of last","C80_names",F)
e("vf02","Vtk/File","    | some i => name.drop i)","    | some i => name.drop (i + 1))","extension","extension without its dot","C80_names",F)
e("vf03","Vtk/File",".map Char.toLower","","extension","case not dropped","C80_names",F)
e("vf04","Vtk/File","extension name = \".vtk\".toList then some Format.legacy","extension name = \".vtk\".toList then some Format.xml","formatOf","XML for .vtk","C80_names",F)
e("vf05","Vtk/File","    | none => []\n","    | none => name\n","extension","whole name as extension when there is no dot","C80_names (name vtk)",F)
e("vf06","Vtk/File","if n = name then some (io.write f g) else fs n","some (io.write f g)","writeGrid","all files overwritten","C80_files",F)
e("vf07","Vtk/File","  | some f => some (io.read f (fs name))","  | some f => some (io.read Format.xml (fs name))","readGrid","always the XML reader","C80_files",F)
e("vf08","Vtk/File","  | none => none\n\n/-- `write","  | none => some (io.read Format.legacy (fs name))\n\n/-- `write","readGrid","other names read as legacy","C80_other",F)
e("vf09","Vtk/File","  | none => fs\n","  | none => fun n => if n = name then some (io.write Format.legacy g) else fs n\n","writeGrid","other names written as legacy","C80_other",F)
e("vf10","Vtk/Model","(keep fl (x, y, z))","(keep fl (x, z, y))","writeVert","y and z swapped","C51_write, C80_mesh",F)
e("vf11","Vtk/Model","(fl x.1, fl x.2.1, fl x.2.2)","(x.1, x.2.1, x.2.2)","keep","points kept exactly","C51_single_negation",F)
e("vf12","Vtk/PointIndex","(if i ≠ 0 then n else 2 * n + n)","(if i ≠ 0 then n else 2 * n)","vtkIndex","wrong start of an edge","vtkIndex_numbering",F,same_file=True)
e("vp01","DetJac/Program","\"output.vtk\"","\"output.vtu\"","mainProgram","other output file","C81",D)
e("vp02","DetJac/Program","mesh.toVtk dets ((mesh.order + 1) ^ 3)","mesh.toVtk dets ((mesh.order + 1) ^ 2)","mainProgram","wrong row length of the solution","C81",D)
e("vp03","DetJac/Program","m.coords.val (i / 3) (i % 3)","m.coords.val (i % 3) (i / 3)","Mesh.toVtk","indices of the coordinates swapped","C81",D)
e("vp04","DetJac/Model","(1 / 2 * Real.pi) Real.pi i j k","(1 / 2 * Real.pi) (3 / 2 * Real.pi) i j k","annSecond","second element twice as wide","C81, C71",D)
e("vp05","DetJac/Model","let det ← s.det.set (e * V + ii) r.1","let det ← s.det.set (ii) r.1","vertDet","determinants of the second element over the first","C81, C71",D)
e("vp06","DetJac/Program","compute mesh J.det J.q","compute { mesh with numElems := 1 } J.det J.q","mainProgram","determinants of the first element only","C81",D)
e("es01","Shape/Select","  | .Hex20 => some .hex20","  | .Hex20 => some .hex32","choose3D","Hex32 for Hex20","C82",S,same_file=True)
e("es02","Shape/Select","  | .HexN => elem\n","  | .HexN => some .hex8\n","choose3D","HexN gives Hex8","C82_arbitrary_negation",S,same_file=True)
e("es03","Shape/Select","  | _ => some .quad4","  | _ => elem","choose2D","no default","C82",S,same_file=True)
e("es04","Shape/Select","  | .Quad12 => some .quad12\n","","choose2D","case Quad12 missing","C82",S,same_file=True)
json.dump(M,open("/tmp/mut14.json","w"))
