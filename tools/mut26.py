import json
M=[]
def e(id,f,old,new,d,edit,claim,target,**k):
    M.append(dict(id=id,file="Verif/%s.lean"%f,old=old,new=new,edit=edit,claim=claim,target=target,**{"def":d},**k))
F="VtuFile/Model"; T="Verif.VtuFile.Theorems"
def g(i,old,new,d,ed,cl,**k): e("vtu-26_%02d"%i,F,old,new,d,ed,cl,T,**k)
g(1,"digitsN 6 m","digitsN 5 m","fmtF","%.5f digits","C106_vtu: coordinates")
g(2,"(if x < 0 then ['-'] else [])","[]","fmtF","sign lost","C106_vtu: coordinates")
g(3,"dec (m / 10 ^ 6)","dec (m / 10 ^ 7)","fmtF","integer part off","C106_vtu: coordinates")
g(4,"++ dec (m / 10 ^ 6) ++ ['.'] ++","++ dec (m / 10 ^ 6) ++ [','] ++","fmtF","decimal comma","C106_vtu: accepted")
g(5,"chars \"   \" ++ fmtF rnd (coords n 1)","fmtF rnd (coords n 1)","vtuText","blank missing between coordinates","C106_vtu: coordinates",nth=0)
g(6,"fmtF rnd (coords n 1) ++ chars \"   \" ++ fmtF rnd (coords n 2)","fmtF rnd (coords n 2) ++ chars \"   \" ++ fmtF rnd (coords n 1)","vtuText","y and z swapped","C106_vtu: coordinates")
g(7,"loop num_nodes (fun n t =>","loop (num_nodes - 1) (fun n t =>","vtuText","last node missing","C106_vtu: points")
g(8,"loop num_cells (fun c t => t ++ (fmtF rnd (f32 c) ++ ['\\n'])) t) t","loop num_cells (fun c t => t ++ (fmtF rnd (f32 (c + 1)) ++ ['\\n'])) t) t","vtuText","data off by one","C106_vtu: data")
g(9,"loop 8 (fun n t => t ++ (fmtD 0 (nodes c n) ++ chars \"  \")) t ++ ln \"\") t","loop 8 (fun n t => t ++ (fmtD 0 (nodes c n) ++ chars \"\")) t ++ ln \"\") t","vtuText","node numbers run together","C106_vtu: connectivity")
g(10,"fmtD 0 (8 * (c + 1)) ++ ln \"  \"","fmtD 0 (8 * c) ++ ln \"  \"","vtuText","offsets begin at 0","C106_vtu: offsets")
g(11,"(fmtD 0 42 ++ ln \"  \")","(fmtD 0 12 ++ ln \"  \")","vtuText","type hexahedron","C106_vtu: types")
g(12,"(t ++ chars \"4  \") ++ ln \"\")","t ++ ln \"\")","vtuText","face size missing","C106_vtu: faces")
g(13,"(t ++ (fmtD 0 6 ++ ln \"  \"))) t","t) t","vtuText","number of faces missing","C106_vtu: faces")
g(14,"let faceoffsets : ℕ := 31","let faceoffsets : ℕ := 30","vtuText","30 numbers per cell","C106_vtu: faces")
g(15,'ln "<DataArray type=\\"Int64\\" Name=\\"faces\\">"','ln "<DataArray type=\\"Int64\\" Name=\\"face\\">"',"vtuText","array misnamed","C106_vtu: accepted")
g(16,'let t := t ++ ln "<DataArray type=\\"Int64\\" Name=\\"offsets\\">"\n','',"vtuText","header dropped","C106_vtu: accepted")
g(17,'t ++ ln "</Piece> " ++ ln "</UnstructuredGrid> " ++ ln "</VTKFile> "','t ++ ln "</Piece> " ++ ln "</UnstructuredGrid> "',"vtuText","closing tag missing","C106_vtu: accepted; C106_cut")
g(18,'fmtD 0 num_nodes ++ chars "\\" NumberOfCells=\\"" ++ fmtD 0 num_cells','fmtD 0 num_cells ++ chars "\\" NumberOfCells=\\"" ++ fmtD 0 num_nodes',"vtuText","counts swapped","C106_vtu: counts")
g(19,"nodeInPatchInCell nodes c p q","nodeInPatchInCell nodes c q p","vtuText","patch and node swapped","C106_vtu: faces")
g(20,'[.mkdir (chars "vtk"), .mkdir (chars "vtk/data")] ++','[.mkdir (chars "vtk/data"), .mkdir (chars "vtk")] ++',"vtkOps","directories in the wrong order","C106_crash: returns")
g(21,"sprintf 128 (chars","sprintf 32 (chars","vtkOps","small buffer","C106_crash: returns")
g(22,'++ chars "_" ++ fmtD 0 0 ++','++ chars "_" ++ fmtD 0 1 ++',"vtkOps","piece 1","C106_crash: file name")
g(23,'let t := t ++ ln "</DataArray> " ++ ln "</Points> " ++ ln ""','let t := t ++ ln "</Points> " ++ ln ""',"vtuText","array not closed","C106_vtu: accepted")
g(24,'ln "</PointData> " ++ ln ""','ln "</PointData> " ++ ln "</VTKFile> "',"vtuText","closing tag early","C106_cut")
for m in M:
    s=open("/verif/lean/"+m["file"]).read(); n=s.count(m["old"])
    if n!=1 and "nth" not in m or n==0: print(m["id"],n)
json.dump(M,open("/tmp/mut26.json","w"),ensure_ascii=False,indent=1)
print(len(M))
