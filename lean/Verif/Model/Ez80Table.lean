import Verif.Model.State

/-
The instruction table of opcodes_ez80.cpp, translated entry by entry by a script. The bytes are listed in emission
order: write_instruction_data (pass_one.cpp:679) writes `instr_data` from its last element to its first.
The last three numbers are the execution times and what ADL mode adds to them.
-/

namespace Spasm

/-- opcodes_ez80.cpp:99-319 -/
def ez80_ld : List Instr := [
  ⟨b! "SP,HL", [0xf9], false, 0, 1, 1, 1, 0⟩,
  ⟨b! "BC,(HL)", [0xed, 0x7], false, 0, 2, 4, 4, 1⟩,
  ⟨b! "(HL),BC", [0xed, 0xf], false, 0, 2, 4, 4, 1⟩,
  ⟨b! "DE,(HL)", [0xed, 0x17], false, 0, 2, 4, 4, 1⟩,
  ⟨b! "(HL),DE", [0xed, 0x1f], false, 0, 2, 4, 4, 1⟩,
  ⟨b! "HL,(HL)", [0xed, 0x27], false, 0, 2, 4, 4, 1⟩,
  ⟨b! "(HL),HL", [0xed, 0x2f], false, 0, 2, 4, 4, 1⟩,
  ⟨b! "IY,(HL)", [0xed, 0x31], false, 0, 2, 4, 4, 1⟩,
  ⟨b! "IX,(HL)", [0xed, 0x37], false, 0, 2, 4, 4, 1⟩,
  ⟨b! "(HL),IY", [0xed, 0x3e], false, 0, 2, 4, 4, 1⟩,
  ⟨b! "(HL),IX", [0xed, 0x3f], false, 0, 2, 4, 4, 1⟩,
  ⟨b! "BC,(IX@)", [0xdd, 0x7], false, 0, 3, 5, 5, 1⟩,
  ⟨b! "(IX@),BC", [0xdd, 0xf], false, 0, 3, 5, 5, 1⟩,
  ⟨b! "DE,(IX@)", [0xdd, 0x17], false, 0, 3, 5, 5, 1⟩,
  ⟨b! "(IX@),DE", [0xdd, 0x1f], false, 0, 3, 5, 5, 1⟩,
  ⟨b! "HL,(IX@)", [0xdd, 0x27], false, 0, 3, 5, 5, 1⟩,
  ⟨b! "(IX@),HL", [0xdd, 0x2f], false, 0, 3, 5, 5, 1⟩,
  ⟨b! "IY,(IX@)", [0xdd, 0x31], false, 0, 3, 5, 5, 1⟩,
  ⟨b! "IX,(IX@)", [0xdd, 0x37], false, 0, 3, 5, 5, 1⟩,
  ⟨b! "(IX@),IY", [0xdd, 0x3e], false, 0, 3, 5, 5, 1⟩,
  ⟨b! "(IX@),IX", [0xdd, 0x3f], false, 0, 3, 5, 5, 1⟩,
  ⟨b! "BC,(IY@)", [0xfd, 0x7], false, 0, 3, 5, 5, 1⟩,
  ⟨b! "(IY@),BC", [0xfd, 0xf], false, 0, 3, 5, 5, 1⟩,
  ⟨b! "DE,(IY@)", [0xfd, 0x17], false, 0, 3, 5, 5, 1⟩,
  ⟨b! "(IY@),DE", [0xfd, 0x1f], false, 0, 3, 5, 5, 1⟩,
  ⟨b! "HL,(IY@)", [0xfd, 0x27], false, 0, 3, 5, 5, 1⟩,
  ⟨b! "(IY@),HL", [0xfd, 0x2f], false, 0, 3, 5, 5, 1⟩,
  ⟨b! "IX,(IY@)", [0xfd, 0x31], false, 0, 3, 5, 5, 1⟩,
  ⟨b! "IY,(IY@)", [0xfd, 0x37], false, 0, 3, 5, 5, 1⟩,
  ⟨b! "(IY@),IX", [0xfd, 0x3e], false, 0, 3, 5, 5, 1⟩,
  ⟨b! "(IY@),IY", [0xfd, 0x3f], false, 0, 3, 5, 5, 1⟩,
  ⟨b! "A,I", [0xed, 0x57], false, 0, 2, 2, 2, 0⟩,
  ⟨b! "A,R", [0xed, 0x5f], false, 0, 2, 2, 2, 0⟩,
  ⟨b! "A,MB", [0xed, 0x6e], false, 0, 2, 2, 2, 0⟩,
  ⟨b! "I,HL", [0xed, 0xc7], false, 0, 2, 2, 2, 0⟩,
  ⟨b! "HL,I", [0xed, 0xd7], false, 0, 2, 2, 2, 0⟩,
  ⟨b! "IXH,B", [0xdd, 0x60], false, 0, 2, 2, 2, 0⟩,
  ⟨b! "IYH,B", [0xfd, 0x60], false, 0, 2, 2, 2, 0⟩,
  ⟨b! "IXH,C", [0xdd, 0x61], false, 0, 2, 2, 2, 0⟩,
  ⟨b! "IYH,C", [0xfd, 0x61], false, 0, 2, 2, 2, 0⟩,
  ⟨b! "IXH,D", [0xdd, 0x62], false, 0, 2, 2, 2, 0⟩,
  ⟨b! "IYH,D", [0xfd, 0x62], false, 0, 2, 2, 2, 0⟩,
  ⟨b! "IXH,E", [0xdd, 0x63], false, 0, 2, 2, 2, 0⟩,
  ⟨b! "IYH,E", [0xfd, 0x63], false, 0, 2, 2, 2, 0⟩,
  ⟨b! "IXH,IXH", [0xdd, 0x64], false, 0, 2, 2, 2, 0⟩,
  ⟨b! "IYH,IYH", [0xfd, 0x64], false, 0, 2, 2, 2, 0⟩,
  ⟨b! "IXH,IXL", [0xdd, 0x65], false, 0, 2, 2, 2, 0⟩,
  ⟨b! "IYH,IYL", [0xfd, 0x65], false, 0, 2, 2, 2, 0⟩,
  ⟨b! "H,(IX@)", [0xdd, 0x66], false, 0, 3, 4, 4, 0⟩,
  ⟨b! "H,(IY@)", [0xfd, 0x66], false, 0, 3, 4, 4, 0⟩,
  ⟨b! "IXH,A", [0xdd, 0x67], false, 0, 2, 2, 2, 0⟩,
  ⟨b! "IYH,A", [0xfd, 0x67], false, 0, 2, 2, 2, 0⟩,
  ⟨b! "IXL,B", [0xdd, 0x68], false, 0, 2, 2, 2, 0⟩,
  ⟨b! "IYL,B", [0xfd, 0x68], false, 0, 2, 2, 2, 0⟩,
  ⟨b! "IXL,C", [0xdd, 0x69], false, 0, 2, 2, 2, 0⟩,
  ⟨b! "IYL,C", [0xfd, 0x69], false, 0, 2, 2, 2, 0⟩,
  ⟨b! "IXL,D", [0xdd, 0x6a], false, 0, 2, 2, 2, 0⟩,
  ⟨b! "IYL,D", [0xfd, 0x6a], false, 0, 2, 2, 2, 0⟩,
  ⟨b! "IXL,E", [0xdd, 0x6b], false, 0, 2, 2, 2, 0⟩,
  ⟨b! "IYL,E", [0xfd, 0x6b], false, 0, 2, 2, 2, 0⟩,
  ⟨b! "IXL,IXH", [0xdd, 0x6c], false, 0, 2, 2, 2, 0⟩,
  ⟨b! "IYL,IYH", [0xfd, 0x6c], false, 0, 2, 2, 2, 0⟩,
  ⟨b! "IXL,IXL", [0xdd, 0x6d], false, 0, 2, 2, 2, 0⟩,
  ⟨b! "IYL,IYL", [0xfd, 0x6d], false, 0, 2, 2, 2, 0⟩,
  ⟨b! "L,(IX@)", [0xdd, 0x6e], false, 0, 3, 4, 4, 0⟩,
  ⟨b! "L,(IY@)", [0xfd, 0x6e], false, 0, 3, 4, 4, 0⟩,
  ⟨b! "IXL,A", [0xdd, 0x6f], false, 0, 2, 2, 2, 0⟩,
  ⟨b! "IYL,A", [0xfd, 0x6f], false, 0, 2, 2, 2, 0⟩,
  ⟨b! "(*),IX", [0xdd, 0x22], false, 0, 4, 6, 6, 2⟩,
  ⟨b! "(*),IY", [0xfd, 0x22], false, 0, 4, 6, 6, 2⟩,
  ⟨b! "IXH,&", [0xdd, 0x26], false, 0, 3, 3, 3, 0⟩,
  ⟨b! "IYH,&", [0xfd, 0x26], false, 0, 3, 3, 3, 0⟩,
  ⟨b! "IX,(*)", [0xdd, 0x2a], false, 0, 4, 6, 6, 2⟩,
  ⟨b! "IY,(*)", [0xfd, 0x2a], false, 0, 4, 6, 6, 2⟩,
  ⟨b! "IXL,&", [0xdd, 0x2e], false, 0, 3, 3, 3, 0⟩,
  ⟨b! "IYL,&", [0xfd, 0x2e], false, 0, 3, 3, 3, 0⟩,
  ⟨b! "B,IXH", [0xdd, 0x44], false, 0, 2, 2, 2, 0⟩,
  ⟨b! "B,IYH", [0xfd, 0x44], false, 0, 2, 2, 2, 0⟩,
  ⟨b! "B,IXL", [0xdd, 0x45], false, 0, 2, 2, 2, 0⟩,
  ⟨b! "B,IYL", [0xfd, 0x45], false, 0, 2, 2, 2, 0⟩,
  ⟨b! "B,(IX@)", [0xdd, 0x46], false, 0, 3, 4, 4, 0⟩,
  ⟨b! "B,(IY@)", [0xfd, 0x46], false, 0, 3, 4, 4, 0⟩,
  ⟨b! "C,IXH", [0xdd, 0x4c], false, 0, 2, 2, 2, 0⟩,
  ⟨b! "C,IYH", [0xfd, 0x4c], false, 0, 2, 2, 2, 0⟩,
  ⟨b! "C,IXL", [0xdd, 0x4d], false, 0, 2, 2, 2, 0⟩,
  ⟨b! "C,IYL", [0xfd, 0x4d], false, 0, 2, 2, 2, 0⟩,
  ⟨b! "C,(IX@)", [0xdd, 0x4e], false, 0, 3, 4, 4, 0⟩,
  ⟨b! "C,(IY@)", [0xfd, 0x4e], false, 0, 3, 4, 4, 0⟩,
  ⟨b! "D,IXH", [0xdd, 0x54], false, 0, 2, 2, 2, 0⟩,
  ⟨b! "D,IYH", [0xfd, 0x54], false, 0, 2, 2, 2, 0⟩,
  ⟨b! "D,IXL", [0xdd, 0x55], false, 0, 2, 2, 2, 0⟩,
  ⟨b! "D,IYL", [0xfd, 0x55], false, 0, 2, 2, 2, 0⟩,
  ⟨b! "D,(IX@)", [0xdd, 0x56], false, 0, 3, 4, 4, 0⟩,
  ⟨b! "D,(IY@)", [0xfd, 0x56], false, 0, 3, 4, 4, 0⟩,
  ⟨b! "E,IXH", [0xdd, 0x5c], false, 0, 2, 2, 2, 0⟩,
  ⟨b! "E,IYH", [0xfd, 0x5c], false, 0, 2, 2, 2, 0⟩,
  ⟨b! "E,IXL", [0xdd, 0x5d], false, 0, 2, 2, 2, 0⟩,
  ⟨b! "E,IYL", [0xfd, 0x5d], false, 0, 2, 2, 2, 0⟩,
  ⟨b! "E,(IX@)", [0xdd, 0x5e], false, 0, 3, 4, 4, 0⟩,
  ⟨b! "E,(IY@)", [0xfd, 0x5e], false, 0, 3, 4, 4, 0⟩,
  ⟨b! "(IX@),B", [0xdd, 0x70], false, 0, 3, 4, 4, 0⟩,
  ⟨b! "(IY@),B", [0xfd, 0x70], false, 0, 3, 4, 4, 0⟩,
  ⟨b! "(IX@),C", [0xdd, 0x71], false, 0, 3, 4, 4, 0⟩,
  ⟨b! "(IY@),C", [0xfd, 0x71], false, 0, 3, 4, 4, 0⟩,
  ⟨b! "(IX@),D", [0xdd, 0x72], false, 0, 3, 4, 4, 0⟩,
  ⟨b! "(IY@),D", [0xfd, 0x72], false, 0, 3, 4, 4, 0⟩,
  ⟨b! "(IX@),E", [0xdd, 0x73], false, 0, 3, 4, 4, 0⟩,
  ⟨b! "(IY@),E", [0xfd, 0x73], false, 0, 3, 4, 4, 0⟩,
  ⟨b! "(IX@),H", [0xdd, 0x74], false, 0, 3, 4, 4, 0⟩,
  ⟨b! "(IY@),H", [0xfd, 0x74], false, 0, 3, 4, 4, 0⟩,
  ⟨b! "(IX@),L", [0xdd, 0x75], false, 0, 3, 4, 4, 0⟩,
  ⟨b! "(IY@),L", [0xfd, 0x75], false, 0, 3, 4, 4, 0⟩,
  ⟨b! "(IX@),A", [0xdd, 0x77], false, 0, 3, 4, 4, 0⟩,
  ⟨b! "(IY@),A", [0xfd, 0x77], false, 0, 3, 4, 4, 0⟩,
  ⟨b! "A,IXH", [0xdd, 0x7c], false, 0, 2, 2, 2, 0⟩,
  ⟨b! "A,IYH", [0xfd, 0x7c], false, 0, 2, 2, 2, 0⟩,
  ⟨b! "A,IXL", [0xdd, 0x7d], false, 0, 2, 2, 2, 0⟩,
  ⟨b! "A,IYL", [0xfd, 0x7d], false, 0, 2, 2, 2, 0⟩,
  ⟨b! "A,(IX@)", [0xdd, 0x7e], false, 0, 3, 4, 4, 0⟩,
  ⟨b! "A,(IY@)", [0xfd, 0x7e], false, 0, 3, 4, 4, 0⟩,
  ⟨b! "(IX@),&", [0xdd, 0x36], false, 0, 4, 5, 5, 0⟩,
  ⟨b! "(IY@),&", [0xfd, 0x36], false, 0, 4, 5, 5, 0⟩,
  ⟨b! "SP,IX", [0xdd, 0xf9], false, 0, 2, 2, 2, 0⟩,
  ⟨b! "SP,IY", [0xfd, 0xf9], false, 0, 2, 2, 2, 0⟩,
  ⟨b! "B,B", [0x40], false, 0, 1, 1, 1, 0⟩,
  ⟨b! "B,C", [0x41], false, 0, 1, 1, 1, 0⟩,
  ⟨b! "B,D", [0x42], false, 0, 1, 1, 1, 0⟩,
  ⟨b! "B,E", [0x43], false, 0, 1, 1, 1, 0⟩,
  ⟨b! "B,H", [0x44], false, 0, 1, 1, 1, 0⟩,
  ⟨b! "B,L", [0x45], false, 0, 1, 1, 1, 0⟩,
  ⟨b! "B,(HL)", [0x46], false, 0, 1, 2, 2, 0⟩,
  ⟨b! "B,A", [0x47], false, 0, 1, 1, 1, 0⟩,
  ⟨b! "C,B", [0x48], false, 0, 1, 1, 1, 0⟩,
  ⟨b! "C,C", [0x49], false, 0, 1, 1, 1, 0⟩,
  ⟨b! "C,D", [0x4a], false, 0, 1, 1, 1, 0⟩,
  ⟨b! "C,E", [0x4b], false, 0, 1, 1, 1, 0⟩,
  ⟨b! "C,H", [0x4c], false, 0, 1, 1, 1, 0⟩,
  ⟨b! "C,L", [0x4d], false, 0, 1, 1, 1, 0⟩,
  ⟨b! "C,(HL)", [0x4e], false, 0, 1, 2, 2, 0⟩,
  ⟨b! "C,A", [0x4f], false, 0, 1, 1, 1, 0⟩,
  ⟨b! "D,B", [0x50], false, 0, 1, 1, 1, 0⟩,
  ⟨b! "D,C", [0x51], false, 0, 1, 1, 1, 0⟩,
  ⟨b! "D,D", [0x52], false, 0, 1, 1, 1, 0⟩,
  ⟨b! "D,E", [0x53], false, 0, 1, 1, 1, 0⟩,
  ⟨b! "D,H", [0x54], false, 0, 1, 1, 1, 0⟩,
  ⟨b! "D,L", [0x55], false, 0, 1, 1, 1, 0⟩,
  ⟨b! "D,(HL)", [0x56], false, 0, 1, 2, 2, 0⟩,
  ⟨b! "D,A", [0x57], false, 0, 1, 1, 1, 0⟩,
  ⟨b! "E,B", [0x58], false, 0, 1, 1, 1, 0⟩,
  ⟨b! "E,C", [0x59], false, 0, 1, 1, 1, 0⟩,
  ⟨b! "E,D", [0x5a], false, 0, 1, 1, 1, 0⟩,
  ⟨b! "E,E", [0x5b], false, 0, 1, 1, 1, 0⟩,
  ⟨b! "E,H", [0x5c], false, 0, 1, 1, 1, 0⟩,
  ⟨b! "E,L", [0x5d], false, 0, 1, 1, 1, 0⟩,
  ⟨b! "E,(HL)", [0x5e], false, 0, 1, 2, 2, 0⟩,
  ⟨b! "E,A", [0x5f], false, 0, 1, 1, 1, 0⟩,
  ⟨b! "H,B", [0x60], false, 0, 1, 1, 1, 0⟩,
  ⟨b! "H,C", [0x61], false, 0, 1, 1, 1, 0⟩,
  ⟨b! "H,D", [0x62], false, 0, 1, 1, 1, 0⟩,
  ⟨b! "H,E", [0x63], false, 0, 1, 1, 1, 0⟩,
  ⟨b! "H,H", [0x64], false, 0, 1, 1, 1, 0⟩,
  ⟨b! "H,L", [0x65], false, 0, 1, 1, 1, 0⟩,
  ⟨b! "H,(HL)", [0x66], false, 0, 1, 2, 2, 0⟩,
  ⟨b! "H,A", [0x67], false, 0, 1, 1, 1, 0⟩,
  ⟨b! "L,B", [0x68], false, 0, 1, 1, 1, 0⟩,
  ⟨b! "L,C", [0x69], false, 0, 1, 1, 1, 0⟩,
  ⟨b! "L,D", [0x6a], false, 0, 1, 1, 1, 0⟩,
  ⟨b! "L,E", [0x6b], false, 0, 1, 1, 1, 0⟩,
  ⟨b! "L,H", [0x6c], false, 0, 1, 1, 1, 0⟩,
  ⟨b! "L,L", [0x6d], false, 0, 1, 1, 1, 0⟩,
  ⟨b! "L,(HL)", [0x6e], false, 0, 1, 2, 2, 0⟩,
  ⟨b! "L,A", [0x6f], false, 0, 1, 1, 1, 0⟩,
  ⟨b! "(HL),B", [0x70], false, 0, 1, 2, 2, 0⟩,
  ⟨b! "(HL),C", [0x71], false, 0, 1, 2, 2, 0⟩,
  ⟨b! "(HL),D", [0x72], false, 0, 1, 2, 2, 0⟩,
  ⟨b! "(HL),E", [0x73], false, 0, 1, 2, 2, 0⟩,
  ⟨b! "(HL),H", [0x74], false, 0, 1, 2, 2, 0⟩,
  ⟨b! "(HL),L", [0x75], false, 0, 1, 2, 2, 0⟩,
  ⟨b! "(HL),A", [0x77], false, 0, 1, 2, 2, 0⟩,
  ⟨b! "A,B", [0x78], false, 0, 1, 1, 1, 0⟩,
  ⟨b! "A,C", [0x79], false, 0, 1, 1, 1, 0⟩,
  ⟨b! "A,D", [0x7a], false, 0, 1, 1, 1, 0⟩,
  ⟨b! "A,E", [0x7b], false, 0, 1, 1, 1, 0⟩,
  ⟨b! "A,H", [0x7c], false, 0, 1, 1, 1, 0⟩,
  ⟨b! "A,L", [0x7d], false, 0, 1, 1, 1, 0⟩,
  ⟨b! "A,(HL)", [0x7e], false, 0, 1, 2, 2, 0⟩,
  ⟨b! "A,A", [0x7f], false, 0, 1, 1, 1, 0⟩,
  ⟨b! "(BC),A", [0x2], false, 0, 1, 2, 2, 0⟩,
  ⟨b! "B,&", [0x6], false, 0, 2, 2, 2, 0⟩,
  ⟨b! "A,(BC)", [0xa], false, 0, 1, 2, 2, 0⟩,
  ⟨b! "C,&", [0xe], false, 0, 2, 2, 2, 0⟩,
  ⟨b! "(DE),A", [0x12], false, 0, 1, 2, 2, 0⟩,
  ⟨b! "D,&", [0x16], false, 0, 2, 2, 2, 0⟩,
  ⟨b! "A,(DE)", [0x1a], false, 0, 1, 2, 2, 0⟩,
  ⟨b! "E,&", [0x1e], false, 0, 2, 2, 2, 0⟩,
  ⟨b! "(*),HL", [0x22], false, 0, 3, 5, 5, 2⟩,
  ⟨b! "H,&", [0x26], false, 0, 2, 2, 2, 0⟩,
  ⟨b! "HL,(*)", [0x2a], false, 0, 3, 5, 5, 2⟩,
  ⟨b! "L,&", [0x2e], false, 0, 2, 2, 2, 0⟩,
  ⟨b! "(*),A", [0x32], false, 0, 3, 4, 4, 1⟩,
  ⟨b! "(HL),&", [0x36], false, 0, 2, 3, 3, 0⟩,
  ⟨b! "A,(*)", [0x3a], false, 0, 3, 4, 4, 1⟩,
  ⟨b! "A,&", [0x3e], false, 0, 2, 2, 2, 0⟩,
  ⟨b! "(*),BC", [0xed, 0x43], false, 0, 4, 6, 6, 2⟩,
  ⟨b! "I,A", [0xed, 0x47], false, 0, 2, 2, 2, 0⟩,
  ⟨b! "BC,(*)", [0xed, 0x4b], false, 0, 4, 6, 6, 2⟩,
  ⟨b! "R,A", [0xed, 0x4f], false, 0, 2, 2, 2, 0⟩,
  ⟨b! "(*),DE", [0xed, 0x53], false, 0, 4, 6, 6, 2⟩,
  ⟨b! "DE,(*)", [0xed, 0x5b], false, 0, 4, 6, 6, 2⟩,
  ⟨b! "(*),HL", [0xed, 0x63], false, 0, 4, 6, 6, 2⟩,
  ⟨b! "HL,(*)", [0xed, 0x6b], false, 0, 4, 6, 6, 2⟩,
  ⟨b! "MB,A", [0xed, 0x6d], false, 0, 2, 2, 2, 0⟩,
  ⟨b! "(*),SP", [0xed, 0x73], false, 0, 4, 6, 6, 2⟩,
  ⟨b! "SP,(*)", [0xed, 0x7b], false, 0, 4, 6, 6, 2⟩,
  ⟨b! "HL,*", [0x21], false, 0, 3, 3, 3, 1⟩,
  ⟨b! "BC,*", [0x1], false, 0, 3, 3, 3, 1⟩,
  ⟨b! "DE,*", [0x11], false, 0, 3, 3, 3, 1⟩,
  ⟨b! "IX,*", [0xdd, 0x21], false, 0, 4, 4, 4, 1⟩,
  ⟨b! "IY,*", [0xfd, 0x21], false, 0, 4, 4, 4, 1⟩,
  ⟨b! "SP,*", [0x31], false, 0, 3, 3, 3, 1⟩]

/-- opcodes_ez80.cpp:831-840 -/
def ez80_call : List Instr := [
  ⟨b! "NZ,*", [0xc4], false, 0, 3, 3, 6, 1⟩,
  ⟨b! "Z,*", [0xcc], false, 0, 3, 3, 6, 1⟩,
  ⟨b! "NC,*", [0xd4], false, 0, 3, 3, 6, 1⟩,
  ⟨b! "C,*", [0xdc], false, 0, 3, 3, 6, 1⟩,
  ⟨b! "PO,*", [0xe4], false, 0, 3, 3, 6, 1⟩,
  ⟨b! "PE,*", [0xec], false, 0, 3, 3, 6, 1⟩,
  ⟨b! "P,*", [0xf4], false, 0, 3, 3, 6, 1⟩,
  ⟨b! "M,*", [0xfc], false, 0, 3, 3, 6, 1⟩,
  ⟨b! "*", [0xcd], false, 0, 3, 5, 5, 2⟩]

/-- opcodes_ez80.cpp:623-632 -/
def ez80_ret : List Instr := [
  ⟨b! "", [0xc9], false, 0, 1, 5, 5, 1⟩,
  ⟨b! "NZ", [0xc0], false, 0, 1, 2, 6, 1⟩,
  ⟨b! "Z", [0xc8], false, 0, 1, 2, 6, 1⟩,
  ⟨b! "NC", [0xd0], false, 0, 1, 2, 6, 1⟩,
  ⟨b! "C", [0xd8], false, 0, 1, 2, 6, 1⟩,
  ⟨b! "PO", [0xe0], false, 0, 1, 2, 6, 1⟩,
  ⟨b! "PE", [0xe8], false, 0, 1, 2, 6, 1⟩,
  ⟨b! "P", [0xf0], false, 0, 1, 2, 6, 1⟩,
  ⟨b! "M", [0xf8], false, 0, 1, 2, 6, 1⟩]

/-- opcodes_ez80.cpp:92-97 -/
def ez80_jr : List Instr := [
  ⟨b! "NZ,%", [0x20], false, 0, 2, 2, 3, 0⟩,
  ⟨b! "Z,%", [0x28], false, 0, 2, 2, 3, 0⟩,
  ⟨b! "NC,%", [0x30], false, 0, 2, 2, 3, 0⟩,
  ⟨b! "C,%", [0x38], false, 0, 2, 2, 3, 0⟩,
  ⟨b! "%", [0x18], false, 0, 2, 3, 3, 0⟩]

/-- opcodes_ez80.cpp:78-90 -/
def ez80_jp : List Instr := [
  ⟨b! "(IX)", [0xdd, 0xe9], false, 0, 2, 4, 4, 0⟩,
  ⟨b! "(IY)", [0xfd, 0xe9], false, 0, 2, 4, 4, 0⟩,
  ⟨b! "NZ,*", [0xc2], false, 0, 3, 3, 4, 1⟩,
  ⟨b! "Z,*", [0xca], false, 0, 3, 3, 4, 1⟩,
  ⟨b! "NC,*", [0xd2], false, 0, 3, 3, 4, 1⟩,
  ⟨b! "C,*", [0xda], false, 0, 3, 3, 4, 1⟩,
  ⟨b! "PO,*", [0xe2], false, 0, 3, 3, 4, 1⟩,
  ⟨b! "(HL)", [0xe9], false, 0, 1, 3, 3, 0⟩,
  ⟨b! "PE,*", [0xea], false, 0, 3, 3, 4, 1⟩,
  ⟨b! "P,*", [0xf2], false, 0, 3, 3, 4, 1⟩,
  ⟨b! "M,*", [0xfa], false, 0, 3, 3, 4, 1⟩,
  ⟨b! "*", [0xc3], false, 0, 3, 4, 4, 1⟩]

/-- opcodes_ez80.cpp:400-427 -/
def ez80_add : List Instr := [
  ⟨b! "IX,BC", [0xdd, 0x9], false, 0, 2, 2, 2, 0⟩,
  ⟨b! "IY,BC", [0xfd, 0x9], false, 0, 2, 2, 2, 0⟩,
  ⟨b! "IX,DE", [0xdd, 0x19], false, 0, 2, 2, 2, 0⟩,
  ⟨b! "IY,DE", [0xfd, 0x19], false, 0, 2, 2, 2, 0⟩,
  ⟨b! "IX,IX", [0xdd, 0x29], false, 0, 2, 2, 2, 0⟩,
  ⟨b! "IY,IY", [0xfd, 0x29], false, 0, 2, 2, 2, 0⟩,
  ⟨b! "IX,SP", [0xdd, 0x39], false, 0, 2, 2, 2, 0⟩,
  ⟨b! "IY,SP", [0xfd, 0x39], false, 0, 2, 2, 2, 0⟩,
  ⟨b! "A,IXH", [0xdd, 0x84], false, 0, 2, 2, 2, 0⟩,
  ⟨b! "A,IYH", [0xfd, 0x84], false, 0, 2, 2, 2, 0⟩,
  ⟨b! "A,IXL", [0xdd, 0x85], false, 0, 2, 2, 2, 0⟩,
  ⟨b! "A,IYL", [0xfd, 0x85], false, 0, 2, 2, 2, 0⟩,
  ⟨b! "A,(IX@)", [0xdd, 0x86], false, 0, 3, 4, 4, 0⟩,
  ⟨b! "A,(IY@)", [0xfd, 0x86], false, 0, 3, 4, 4, 0⟩,
  ⟨b! "A,B", [0x80], false, 0, 1, 1, 1, 0⟩,
  ⟨b! "A,C", [0x81], false, 0, 1, 1, 1, 0⟩,
  ⟨b! "A,D", [0x82], false, 0, 1, 1, 1, 0⟩,
  ⟨b! "A,E", [0x83], false, 0, 1, 1, 1, 0⟩,
  ⟨b! "A,H", [0x84], false, 0, 1, 1, 1, 0⟩,
  ⟨b! "A,L", [0x85], false, 0, 1, 1, 1, 0⟩,
  ⟨b! "A,(HL)", [0x86], false, 0, 1, 2, 2, 0⟩,
  ⟨b! "A,A", [0x87], false, 0, 1, 1, 1, 0⟩,
  ⟨b! "HL,BC", [0x9], false, 0, 1, 1, 1, 0⟩,
  ⟨b! "HL,DE", [0x19], false, 0, 1, 1, 1, 0⟩,
  ⟨b! "HL,HL", [0x29], false, 0, 1, 1, 1, 0⟩,
  ⟨b! "HL,SP", [0x39], false, 0, 1, 1, 1, 0⟩,
  ⟨b! "A,&", [0xc6], false, 0, 2, 2, 2, 0⟩]

/-- opcodes_ez80.cpp:513-533 -/
def ez80_inc : List Instr := [
  ⟨b! "IX", [0xdd, 0x23], false, 0, 2, 2, 2, 0⟩,
  ⟨b! "IY", [0xfd, 0x23], false, 0, 2, 2, 2, 0⟩,
  ⟨b! "IXH", [0xdd, 0x24], false, 0, 2, 2, 2, 0⟩,
  ⟨b! "IYH", [0xfd, 0x24], false, 0, 2, 2, 2, 0⟩,
  ⟨b! "IXL", [0xdd, 0x2c], false, 0, 2, 2, 2, 0⟩,
  ⟨b! "IYL", [0xfd, 0x2c], false, 0, 2, 2, 2, 0⟩,
  ⟨b! "(IX@)", [0xdd, 0x34], false, 0, 3, 6, 6, 0⟩,
  ⟨b! "(IY@)", [0xfd, 0x34], false, 0, 3, 6, 6, 0⟩,
  ⟨b! "BC", [0x3], false, 0, 1, 1, 1, 0⟩,
  ⟨b! "B", [0x4], false, 0, 1, 1, 1, 0⟩,
  ⟨b! "C", [0xc], false, 0, 1, 1, 1, 0⟩,
  ⟨b! "DE", [0x13], false, 0, 1, 1, 1, 0⟩,
  ⟨b! "D", [0x14], false, 0, 1, 1, 1, 0⟩,
  ⟨b! "E", [0x1c], false, 0, 1, 1, 1, 0⟩,
  ⟨b! "HL", [0x23], false, 0, 1, 1, 1, 0⟩,
  ⟨b! "H", [0x24], false, 0, 1, 1, 1, 0⟩,
  ⟨b! "L", [0x2c], false, 0, 1, 1, 1, 0⟩,
  ⟨b! "SP", [0x33], false, 0, 1, 1, 1, 0⟩,
  ⟨b! "(HL)", [0x34], false, 0, 1, 4, 4, 0⟩,
  ⟨b! "A", [0x3c], false, 0, 1, 1, 1, 0⟩]

/-- opcodes_ez80.cpp:603-609 -/
def ez80_pop : List Instr := [
  ⟨b! "IX", [0xdd, 0xe1], false, 0, 2, 4, 4, 1⟩,
  ⟨b! "IY", [0xfd, 0xe1], false, 0, 2, 4, 4, 1⟩,
  ⟨b! "BC", [0xc1], false, 0, 1, 3, 3, 1⟩,
  ⟨b! "DE", [0xd1], false, 0, 1, 3, 3, 1⟩,
  ⟨b! "HL", [0xe1], false, 0, 1, 3, 3, 1⟩,
  ⟨b! "AF", [0xf1], false, 0, 1, 3, 3, 1⟩]

/-- opcodes_ez80.cpp:905-911 -/
def ez80_push : List Instr := [
  ⟨b! "IX", [0xdd, 0xe5], false, 0, 2, 4, 4, 1⟩,
  ⟨b! "IY", [0xfd, 0xe5], false, 0, 2, 4, 4, 1⟩,
  ⟨b! "BC", [0xc5], false, 0, 1, 3, 3, 1⟩,
  ⟨b! "DE", [0xd5], false, 0, 1, 3, 3, 1⟩,
  ⟨b! "HL", [0xe5], false, 0, 1, 3, 3, 1⟩,
  ⟨b! "AF", [0xf5], false, 0, 1, 3, 3, 1⟩]

/-- opcodes_ez80.cpp:488-508 -/
def ez80_dec : List Instr := [
  ⟨b! "IXH", [0xdd, 0x25], false, 0, 2, 2, 2, 0⟩,
  ⟨b! "IYH", [0xfd, 0x25], false, 0, 2, 2, 2, 0⟩,
  ⟨b! "IX", [0xdd, 0x2b], false, 0, 2, 2, 2, 0⟩,
  ⟨b! "IY", [0xfd, 0x2b], false, 0, 2, 2, 2, 0⟩,
  ⟨b! "IXL", [0xdd, 0x2d], false, 0, 2, 2, 2, 0⟩,
  ⟨b! "IYL", [0xfd, 0x2d], false, 0, 2, 2, 2, 0⟩,
  ⟨b! "(IX@)", [0xdd, 0x35], false, 0, 3, 6, 6, 0⟩,
  ⟨b! "(IY@)", [0xfd, 0x35], false, 0, 3, 6, 6, 0⟩,
  ⟨b! "B", [0x5], false, 0, 1, 1, 1, 0⟩,
  ⟨b! "BC", [0xb], false, 0, 1, 1, 1, 0⟩,
  ⟨b! "C", [0xd], false, 0, 1, 1, 1, 0⟩,
  ⟨b! "D", [0x15], false, 0, 1, 1, 1, 0⟩,
  ⟨b! "DE", [0x1b], false, 0, 1, 1, 1, 0⟩,
  ⟨b! "E", [0x1d], false, 0, 1, 1, 1, 0⟩,
  ⟨b! "H", [0x25], false, 0, 1, 1, 1, 0⟩,
  ⟨b! "HL", [0x2b], false, 0, 1, 1, 1, 0⟩,
  ⟨b! "L", [0x2d], false, 0, 1, 1, 1, 0⟩,
  ⟨b! "(HL)", [0x35], false, 0, 1, 4, 4, 0⟩,
  ⟨b! "SP", [0x3b], false, 0, 1, 1, 1, 0⟩,
  ⟨b! "A", [0x3d], false, 0, 1, 1, 1, 0⟩]

/-- opcodes_ez80.cpp:7-37 -/
def ez80_cp : List Instr := [
  ⟨b! "A,IXH", [0xdd, 0xbc], false, 0, 2, 2, 2, 0⟩,
  ⟨b! "A,IYH", [0xfd, 0xbc], false, 0, 2, 2, 2, 0⟩,
  ⟨b! "A,IXL", [0xdd, 0xbd], false, 0, 2, 2, 2, 0⟩,
  ⟨b! "A,IYL", [0xfd, 0xbd], false, 0, 2, 2, 2, 0⟩,
  ⟨b! "A,(IX@)", [0xdd, 0xbe], false, 0, 3, 4, 4, 0⟩,
  ⟨b! "A,(IY@)", [0xfd, 0xbe], false, 0, 3, 4, 4, 0⟩,
  ⟨b! "A,B", [0xb8], false, 0, 1, 1, 1, 0⟩,
  ⟨b! "A,C", [0xb9], false, 0, 1, 1, 1, 0⟩,
  ⟨b! "A,D", [0xba], false, 0, 1, 1, 1, 0⟩,
  ⟨b! "A,E", [0xbb], false, 0, 1, 1, 1, 0⟩,
  ⟨b! "A,H", [0xbc], false, 0, 1, 1, 1, 0⟩,
  ⟨b! "A,L", [0xbd], false, 0, 1, 1, 1, 0⟩,
  ⟨b! "A,(HL)", [0xbe], false, 0, 1, 2, 2, 0⟩,
  ⟨b! "A,A", [0xbf], false, 0, 1, 1, 1, 0⟩,
  ⟨b! "A,&", [0xfe], false, 0, 2, 2, 2, 0⟩,
  ⟨b! "IXH", [0xdd, 0xbc], false, 0, 2, 2, 2, 0⟩,
  ⟨b! "IYH", [0xfd, 0xbc], false, 0, 2, 2, 2, 0⟩,
  ⟨b! "IXL", [0xdd, 0xbd], false, 0, 2, 2, 2, 0⟩,
  ⟨b! "IYL", [0xfd, 0xbd], false, 0, 2, 2, 2, 0⟩,
  ⟨b! "(IX@)", [0xdd, 0xbe], false, 0, 3, 4, 4, 0⟩,
  ⟨b! "(IY@)", [0xfd, 0xbe], false, 0, 3, 4, 4, 0⟩,
  ⟨b! "B", [0xb8], false, 0, 1, 1, 1, 0⟩,
  ⟨b! "C", [0xb9], false, 0, 1, 1, 1, 0⟩,
  ⟨b! "D", [0xba], false, 0, 1, 1, 1, 0⟩,
  ⟨b! "E", [0xbb], false, 0, 1, 1, 1, 0⟩,
  ⟨b! "H", [0xbc], false, 0, 1, 1, 1, 0⟩,
  ⟨b! "L", [0xbd], false, 0, 1, 1, 1, 0⟩,
  ⟨b! "(HL)", [0xbe], false, 0, 1, 2, 2, 0⟩,
  ⟨b! "A", [0xbf], false, 0, 1, 1, 1, 0⟩,
  ⟨b! "&", [0xfe], false, 0, 2, 2, 2, 0⟩]

/-- opcodes_ez80.cpp:323-353 -/
def ez80_or : List Instr := [
  ⟨b! "A,IXH", [0xdd, 0xb4], false, 0, 2, 2, 2, 0⟩,
  ⟨b! "A,IYH", [0xfd, 0xb4], false, 0, 2, 2, 2, 0⟩,
  ⟨b! "A,IXL", [0xdd, 0xb5], false, 0, 2, 2, 2, 0⟩,
  ⟨b! "A,IYL", [0xfd, 0xb5], false, 0, 2, 2, 2, 0⟩,
  ⟨b! "A,(IX@)", [0xdd, 0xb6], false, 0, 3, 4, 4, 0⟩,
  ⟨b! "A,(IY@)", [0xfd, 0xb6], false, 0, 3, 4, 4, 0⟩,
  ⟨b! "A,B", [0xb0], false, 0, 1, 1, 1, 0⟩,
  ⟨b! "A,C", [0xb1], false, 0, 1, 1, 1, 0⟩,
  ⟨b! "A,D", [0xb2], false, 0, 1, 1, 1, 0⟩,
  ⟨b! "A,E", [0xb3], false, 0, 1, 1, 1, 0⟩,
  ⟨b! "A,H", [0xb4], false, 0, 1, 1, 1, 0⟩,
  ⟨b! "A,L", [0xb5], false, 0, 1, 1, 1, 0⟩,
  ⟨b! "A,(HL)", [0xb6], false, 0, 1, 2, 2, 0⟩,
  ⟨b! "A,A", [0xb7], false, 0, 1, 1, 1, 0⟩,
  ⟨b! "A,&", [0xf6], false, 0, 2, 2, 2, 0⟩,
  ⟨b! "IXH", [0xdd, 0xb4], false, 0, 2, 2, 2, 0⟩,
  ⟨b! "IYH", [0xfd, 0xb4], false, 0, 2, 2, 2, 0⟩,
  ⟨b! "IXL", [0xdd, 0xb5], false, 0, 2, 2, 2, 0⟩,
  ⟨b! "IYL", [0xfd, 0xb5], false, 0, 2, 2, 2, 0⟩,
  ⟨b! "(IX@)", [0xdd, 0xb6], false, 0, 3, 4, 4, 0⟩,
  ⟨b! "(IY@)", [0xfd, 0xb6], false, 0, 3, 4, 4, 0⟩,
  ⟨b! "B", [0xb0], false, 0, 1, 1, 1, 0⟩,
  ⟨b! "C", [0xb1], false, 0, 1, 1, 1, 0⟩,
  ⟨b! "D", [0xb2], false, 0, 1, 1, 1, 0⟩,
  ⟨b! "E", [0xb3], false, 0, 1, 1, 1, 0⟩,
  ⟨b! "H", [0xb4], false, 0, 1, 1, 1, 0⟩,
  ⟨b! "L", [0xb5], false, 0, 1, 1, 1, 0⟩,
  ⟨b! "(HL)", [0xb6], false, 0, 1, 2, 2, 0⟩,
  ⟨b! "A", [0xb7], false, 0, 1, 1, 1, 0⟩,
  ⟨b! "&", [0xf6], false, 0, 2, 2, 2, 0⟩]

/-- opcodes_ez80.cpp:45-50 -/
def ez80_ex : List Instr := [
  ⟨b! "(SP),IX", [0xdd, 0xe3], false, 0, 2, 6, 6, 2⟩,
  ⟨b! "(SP),IY", [0xfd, 0xe3], false, 0, 2, 6, 6, 2⟩,
  ⟨b! "AF,AF'", [0x8], false, 0, 1, 1, 1, 0⟩,
  ⟨b! "(SP),HL", [0xe3], false, 0, 1, 5, 5, 2⟩,
  ⟨b! "DE,HL", [0xeb], false, 0, 1, 1, 1, 0⟩]

/-- opcodes_ez80.cpp:799-829 -/
def ez80_xor : List Instr := [
  ⟨b! "A,IXH", [0xdd, 0xac], false, 0, 2, 2, 2, 0⟩,
  ⟨b! "A,IYH", [0xfd, 0xac], false, 0, 2, 2, 2, 0⟩,
  ⟨b! "A,IXL", [0xdd, 0xad], false, 0, 2, 2, 2, 0⟩,
  ⟨b! "A,IYL", [0xfd, 0xad], false, 0, 2, 2, 2, 0⟩,
  ⟨b! "A,(IX@)", [0xdd, 0xae], false, 0, 3, 4, 4, 0⟩,
  ⟨b! "A,(IY@)", [0xfd, 0xae], false, 0, 3, 4, 4, 0⟩,
  ⟨b! "A,A", [0xaf], false, 0, 1, 1, 1, 0⟩,
  ⟨b! "A,B", [0xa8], false, 0, 1, 1, 1, 0⟩,
  ⟨b! "A,C", [0xa9], false, 0, 1, 1, 1, 0⟩,
  ⟨b! "A,D", [0xaa], false, 0, 1, 1, 1, 0⟩,
  ⟨b! "A,E", [0xab], false, 0, 1, 1, 1, 0⟩,
  ⟨b! "A,H", [0xac], false, 0, 1, 1, 1, 0⟩,
  ⟨b! "A,L", [0xad], false, 0, 1, 1, 1, 0⟩,
  ⟨b! "A,(HL)", [0xae], false, 0, 1, 2, 2, 0⟩,
  ⟨b! "A,&", [0xee], false, 0, 2, 2, 2, 0⟩,
  ⟨b! "IXH", [0xdd, 0xac], false, 0, 2, 2, 2, 0⟩,
  ⟨b! "IYH", [0xfd, 0xac], false, 0, 2, 2, 2, 0⟩,
  ⟨b! "IXL", [0xdd, 0xad], false, 0, 2, 2, 2, 0⟩,
  ⟨b! "IYL", [0xfd, 0xad], false, 0, 2, 2, 2, 0⟩,
  ⟨b! "(IX@)", [0xdd, 0xae], false, 0, 3, 4, 4, 0⟩,
  ⟨b! "(IY@)", [0xfd, 0xae], false, 0, 3, 4, 4, 0⟩,
  ⟨b! "A", [0xaf], false, 0, 1, 1, 1, 0⟩,
  ⟨b! "B", [0xa8], false, 0, 1, 1, 1, 0⟩,
  ⟨b! "C", [0xa9], false, 0, 1, 1, 1, 0⟩,
  ⟨b! "D", [0xaa], false, 0, 1, 1, 1, 0⟩,
  ⟨b! "E", [0xab], false, 0, 1, 1, 1, 0⟩,
  ⟨b! "H", [0xac], false, 0, 1, 1, 1, 0⟩,
  ⟨b! "L", [0xad], false, 0, 1, 1, 1, 0⟩,
  ⟨b! "(HL)", [0xae], false, 0, 1, 2, 2, 0⟩,
  ⟨b! "&", [0xee], false, 0, 2, 2, 2, 0⟩]

/-- opcodes_ez80.cpp:510-511 -/
def ez80_exx : List Instr := [
  ⟨b! "", [0xd9], false, 0, 1, 1, 1, 0⟩]

/-- opcodes_ez80.cpp:756-786 -/
def ez80_sub : List Instr := [
  ⟨b! "A,IXH", [0xdd, 0x94], false, 0, 2, 2, 2, 0⟩,
  ⟨b! "A,IYH", [0xfd, 0x94], false, 0, 2, 2, 2, 0⟩,
  ⟨b! "A,IXL", [0xdd, 0x95], false, 0, 2, 2, 2, 0⟩,
  ⟨b! "A,IYL", [0xfd, 0x95], false, 0, 2, 2, 2, 0⟩,
  ⟨b! "A,(IX@)", [0xdd, 0x96], false, 0, 3, 4, 4, 0⟩,
  ⟨b! "A,(IY@)", [0xfd, 0x96], false, 0, 3, 4, 4, 0⟩,
  ⟨b! "A,B", [0x90], false, 0, 1, 1, 1, 0⟩,
  ⟨b! "A,C", [0x91], false, 0, 1, 1, 1, 0⟩,
  ⟨b! "A,D", [0x92], false, 0, 1, 1, 1, 0⟩,
  ⟨b! "A,E", [0x93], false, 0, 1, 1, 1, 0⟩,
  ⟨b! "A,H", [0x94], false, 0, 1, 1, 1, 0⟩,
  ⟨b! "A,L", [0x95], false, 0, 1, 1, 1, 0⟩,
  ⟨b! "A,(HL)", [0x96], false, 0, 1, 2, 2, 0⟩,
  ⟨b! "A,A", [0x97], false, 0, 1, 1, 1, 0⟩,
  ⟨b! "A,&", [0xd6], false, 0, 2, 2, 2, 0⟩,
  ⟨b! "IXH", [0xdd, 0x94], false, 0, 2, 2, 2, 0⟩,
  ⟨b! "IYH", [0xfd, 0x94], false, 0, 2, 2, 2, 0⟩,
  ⟨b! "IXL", [0xdd, 0x95], false, 0, 2, 2, 2, 0⟩,
  ⟨b! "IYL", [0xfd, 0x95], false, 0, 2, 2, 2, 0⟩,
  ⟨b! "(IX@)", [0xdd, 0x96], false, 0, 3, 4, 4, 0⟩,
  ⟨b! "(IY@)", [0xfd, 0x96], false, 0, 3, 4, 4, 0⟩,
  ⟨b! "B", [0x90], false, 0, 1, 1, 1, 0⟩,
  ⟨b! "C", [0x91], false, 0, 1, 1, 1, 0⟩,
  ⟨b! "D", [0x92], false, 0, 1, 1, 1, 0⟩,
  ⟨b! "E", [0x93], false, 0, 1, 1, 1, 0⟩,
  ⟨b! "H", [0x94], false, 0, 1, 1, 1, 0⟩,
  ⟨b! "L", [0x95], false, 0, 1, 1, 1, 0⟩,
  ⟨b! "(HL)", [0x96], false, 0, 1, 2, 2, 0⟩,
  ⟨b! "A", [0x97], false, 0, 1, 1, 1, 0⟩,
  ⟨b! "&", [0xd6], false, 0, 2, 2, 2, 0⟩]

/-- opcodes_ez80.cpp:429-459 -/
def ez80_and : List Instr := [
  ⟨b! "A,IXH", [0xdd, 0xa4], false, 0, 2, 2, 2, 0⟩,
  ⟨b! "A,IYH", [0xfd, 0xa4], false, 0, 2, 2, 2, 0⟩,
  ⟨b! "A,IXL", [0xdd, 0xa5], false, 0, 2, 2, 2, 0⟩,
  ⟨b! "A,IYL", [0xfd, 0xa5], false, 0, 2, 2, 2, 0⟩,
  ⟨b! "A,(IX@)", [0xdd, 0xa6], false, 0, 3, 4, 4, 0⟩,
  ⟨b! "A,(IY@)", [0xfd, 0xa6], false, 0, 3, 4, 4, 0⟩,
  ⟨b! "A,B", [0xa0], false, 0, 1, 1, 1, 0⟩,
  ⟨b! "A,C", [0xa1], false, 0, 1, 1, 1, 0⟩,
  ⟨b! "A,D", [0xa2], false, 0, 1, 1, 1, 0⟩,
  ⟨b! "A,E", [0xa3], false, 0, 1, 1, 1, 0⟩,
  ⟨b! "A,H", [0xa4], false, 0, 1, 1, 1, 0⟩,
  ⟨b! "A,L", [0xa5], false, 0, 1, 1, 1, 0⟩,
  ⟨b! "A,(HL)", [0xa6], false, 0, 1, 2, 2, 0⟩,
  ⟨b! "A,A", [0xa7], false, 0, 1, 1, 1, 0⟩,
  ⟨b! "A,&", [0xe6], false, 0, 2, 2, 2, 0⟩,
  ⟨b! "IXH", [0xdd, 0xa4], false, 0, 2, 2, 2, 0⟩,
  ⟨b! "IYH", [0xfd, 0xa4], false, 0, 2, 2, 2, 0⟩,
  ⟨b! "IXL", [0xdd, 0xa5], false, 0, 2, 2, 2, 0⟩,
  ⟨b! "IYL", [0xfd, 0xa5], false, 0, 2, 2, 2, 0⟩,
  ⟨b! "(IX@)", [0xdd, 0xa6], false, 0, 3, 4, 4, 0⟩,
  ⟨b! "(IY@)", [0xfd, 0xa6], false, 0, 3, 4, 4, 0⟩,
  ⟨b! "B", [0xa0], false, 0, 1, 1, 1, 0⟩,
  ⟨b! "C", [0xa1], false, 0, 1, 1, 1, 0⟩,
  ⟨b! "D", [0xa2], false, 0, 1, 1, 1, 0⟩,
  ⟨b! "E", [0xa3], false, 0, 1, 1, 1, 0⟩,
  ⟨b! "H", [0xa4], false, 0, 1, 1, 1, 0⟩,
  ⟨b! "L", [0xa5], false, 0, 1, 1, 1, 0⟩,
  ⟨b! "(HL)", [0xa6], false, 0, 1, 2, 2, 0⟩,
  ⟨b! "A", [0xa7], false, 0, 1, 1, 1, 0⟩,
  ⟨b! "&", [0xe6], false, 0, 2, 2, 2, 0⟩]

/-- opcodes_ez80.cpp:705-715 -/
def ez80_set : List Instr := [
  ⟨b! "^,(IX@)", [0xdd, 0xcb], true, 198, 4, 7, 7, 0⟩,
  ⟨b! "^,(IY@)", [0xfd, 0xcb], true, 198, 4, 7, 7, 0⟩,
  ⟨b! "^,B", [0xcb], true, 192, 2, 2, 2, 0⟩,
  ⟨b! "^,C", [0xcb], true, 193, 2, 2, 2, 0⟩,
  ⟨b! "^,D", [0xcb], true, 194, 2, 2, 2, 0⟩,
  ⟨b! "^,E", [0xcb], true, 195, 2, 2, 2, 0⟩,
  ⟨b! "^,H", [0xcb], true, 196, 2, 2, 2, 0⟩,
  ⟨b! "^,L", [0xcb], true, 197, 2, 2, 2, 0⟩,
  ⟨b! "^,(HL)", [0xcb], true, 198, 2, 5, 5, 0⟩,
  ⟨b! "^,A", [0xcb], true, 199, 2, 2, 2, 0⟩]

/-- opcodes_ez80.cpp:461-471 -/
def ez80_bit : List Instr := [
  ⟨b! "^,(IX@)", [0xdd, 0xcb], true, 70, 4, 5, 5, 0⟩,
  ⟨b! "^,(IY@)", [0xfd, 0xcb], true, 70, 4, 5, 5, 0⟩,
  ⟨b! "^,B", [0xcb], true, 64, 2, 2, 2, 0⟩,
  ⟨b! "^,C", [0xcb], true, 65, 2, 2, 2, 0⟩,
  ⟨b! "^,D", [0xcb], true, 66, 2, 2, 2, 0⟩,
  ⟨b! "^,E", [0xcb], true, 67, 2, 2, 2, 0⟩,
  ⟨b! "^,H", [0xcb], true, 68, 2, 2, 2, 0⟩,
  ⟨b! "^,L", [0xcb], true, 69, 2, 2, 2, 0⟩,
  ⟨b! "^,(HL)", [0xcb], true, 70, 2, 3, 3, 0⟩,
  ⟨b! "^,A", [0xcb], true, 71, 2, 2, 2, 0⟩]

/-- opcodes_ez80.cpp:848-849 -/
def ez80_djnz : List Instr := [
  ⟨b! "%", [0x10], false, 0, 2, 2, 4, 0⟩]

/-- opcodes_ez80.cpp:652-653 -/
def ez80_rra : List Instr := [
  ⟨b! "", [0x1f], false, 0, 1, 1, 1, 0⟩]

/-- opcodes_ez80.cpp:367-377 -/
def ez80_rr : List Instr := [
  ⟨b! "(IX@)", [0xdd, 0xcb], true, 30, 4, 7, 7, 0⟩,
  ⟨b! "(IY@)", [0xfd, 0xcb], true, 30, 4, 7, 7, 0⟩,
  ⟨b! "B", [0xcb, 0x18], false, 0, 2, 2, 2, 0⟩,
  ⟨b! "C", [0xcb, 0x19], false, 0, 2, 2, 2, 0⟩,
  ⟨b! "D", [0xcb, 0x1a], false, 0, 2, 2, 2, 0⟩,
  ⟨b! "E", [0xcb, 0x1b], false, 0, 2, 2, 2, 0⟩,
  ⟨b! "H", [0xcb, 0x1c], false, 0, 2, 2, 2, 0⟩,
  ⟨b! "L", [0xcb, 0x1d], false, 0, 2, 2, 2, 0⟩,
  ⟨b! "(HL)", [0xcb, 0x1e], false, 0, 2, 5, 5, 0⟩,
  ⟨b! "A", [0xcb, 0x1f], false, 0, 2, 2, 2, 0⟩]

/-- opcodes_ez80.cpp:732-742 -/
def ez80_sra : List Instr := [
  ⟨b! "(IX@)", [0xdd, 0xcb], true, 46, 4, 7, 7, 0⟩,
  ⟨b! "(IY@)", [0xfd, 0xcb], true, 46, 4, 7, 7, 0⟩,
  ⟨b! "B", [0xcb, 0x28], false, 0, 2, 2, 2, 0⟩,
  ⟨b! "C", [0xcb, 0x29], false, 0, 2, 2, 2, 0⟩,
  ⟨b! "D", [0xcb, 0x2a], false, 0, 2, 2, 2, 0⟩,
  ⟨b! "E", [0xcb, 0x2b], false, 0, 2, 2, 2, 0⟩,
  ⟨b! "H", [0xcb, 0x2c], false, 0, 2, 2, 2, 0⟩,
  ⟨b! "L", [0xcb, 0x2d], false, 0, 2, 2, 2, 0⟩,
  ⟨b! "(HL)", [0xcb, 0x2e], false, 0, 2, 5, 5, 0⟩,
  ⟨b! "A", [0xcb, 0x2f], false, 0, 2, 2, 2, 0⟩]

/-- opcodes_ez80.cpp:611-621 -/
def ez80_res : List Instr := [
  ⟨b! "^,(IX@)", [0xdd, 0xcb], true, 134, 4, 7, 7, 0⟩,
  ⟨b! "^,(IY@)", [0xfd, 0xcb], true, 134, 4, 7, 7, 0⟩,
  ⟨b! "^,B", [0xcb], true, 128, 2, 2, 2, 0⟩,
  ⟨b! "^,C", [0xcb], true, 129, 2, 2, 2, 0⟩,
  ⟨b! "^,D", [0xcb], true, 130, 2, 2, 2, 0⟩,
  ⟨b! "^,E", [0xcb], true, 131, 2, 2, 2, 0⟩,
  ⟨b! "^,H", [0xcb], true, 132, 2, 2, 2, 0⟩,
  ⟨b! "^,L", [0xcb], true, 133, 2, 2, 2, 0⟩,
  ⟨b! "^,(HL)", [0xcb], true, 134, 2, 5, 5, 0⟩,
  ⟨b! "^,A", [0xcb], true, 135, 2, 2, 2, 0⟩]

/-- opcodes_ez80.cpp:875-876 -/
def ez80_ldir : List Instr := [
  ⟨b! "", [0xed, 0xb0], false, 0, 2, 3, 5, 0⟩]

/-- opcodes_ez80.cpp:634-635 -/
def ez80_rla : List Instr := [
  ⟨b! "", [0x17], false, 0, 1, 1, 1, 0⟩]

/-- opcodes_ez80.cpp:582-597 -/
def ez80_out : List Instr := [
  ⟨b! "(C),A", [0xed, 0x79], false, 0, 2, 3, 3, 0⟩,
  ⟨b! "(BC),A", [0xed, 0x79], false, 0, 2, 3, 3, 0⟩,
  ⟨b! "(&),A", [0xd3], false, 0, 2, 3, 3, 0⟩,
  ⟨b! "(C),B", [0xed, 0x41], false, 0, 2, 3, 3, 0⟩,
  ⟨b! "(BC),B", [0xed, 0x41], false, 0, 2, 3, 3, 0⟩,
  ⟨b! "(C),C", [0xed, 0x49], false, 0, 2, 3, 3, 0⟩,
  ⟨b! "(BC),C", [0xed, 0x49], false, 0, 2, 3, 3, 0⟩,
  ⟨b! "(C),D", [0xed, 0x51], false, 0, 2, 3, 3, 0⟩,
  ⟨b! "(BC),D", [0xed, 0x51], false, 0, 2, 3, 3, 0⟩,
  ⟨b! "(C),E", [0xed, 0x59], false, 0, 2, 3, 3, 0⟩,
  ⟨b! "(BC),E", [0xed, 0x59], false, 0, 2, 3, 3, 0⟩,
  ⟨b! "(C),H", [0xed, 0x61], false, 0, 2, 3, 3, 0⟩,
  ⟨b! "(BC),H", [0xed, 0x61], false, 0, 2, 3, 3, 0⟩,
  ⟨b! "(C),L", [0xed, 0x69], false, 0, 2, 3, 3, 0⟩,
  ⟨b! "(BC),L", [0xed, 0x69], false, 0, 2, 3, 3, 0⟩]

/-- opcodes_ez80.cpp:681-700 -/
def ez80_sbc : List Instr := [
  ⟨b! "A,IXH", [0xdd, 0x9c], false, 0, 2, 2, 2, 0⟩,
  ⟨b! "A,IYH", [0xfd, 0x9c], false, 0, 2, 2, 2, 0⟩,
  ⟨b! "A,IXL", [0xdd, 0x9d], false, 0, 2, 2, 2, 0⟩,
  ⟨b! "A,IYL", [0xfd, 0x9d], false, 0, 2, 2, 2, 0⟩,
  ⟨b! "A,(IX@)", [0xdd, 0x9e], false, 0, 3, 4, 4, 0⟩,
  ⟨b! "A,(IY@)", [0xfd, 0x9e], false, 0, 3, 4, 4, 0⟩,
  ⟨b! "A,B", [0x98], false, 0, 1, 1, 1, 0⟩,
  ⟨b! "A,C", [0x99], false, 0, 1, 1, 1, 0⟩,
  ⟨b! "A,D", [0x9a], false, 0, 1, 1, 1, 0⟩,
  ⟨b! "A,E", [0x9b], false, 0, 1, 1, 1, 0⟩,
  ⟨b! "A,H", [0x9c], false, 0, 1, 1, 1, 0⟩,
  ⟨b! "A,L", [0x9d], false, 0, 1, 1, 1, 0⟩,
  ⟨b! "A,(HL)", [0x9e], false, 0, 1, 2, 2, 0⟩,
  ⟨b! "A,A", [0x9f], false, 0, 1, 1, 1, 0⟩,
  ⟨b! "A,&", [0xde], false, 0, 2, 2, 2, 0⟩,
  ⟨b! "HL,BC", [0xed, 0x42], false, 0, 2, 2, 2, 0⟩,
  ⟨b! "HL,DE", [0xed, 0x52], false, 0, 2, 2, 2, 0⟩,
  ⟨b! "HL,HL", [0xed, 0x62], false, 0, 2, 2, 2, 0⟩,
  ⟨b! "HL,SP", [0xed, 0x72], false, 0, 2, 2, 2, 0⟩]

/-- opcodes_ez80.cpp:482-483 -/
def ez80_cpl : List Instr := [
  ⟨b! "", [0x2f], false, 0, 1, 1, 1, 0⟩]

/-- opcodes_ez80.cpp:355-365 -/
def ez80_rl : List Instr := [
  ⟨b! "(IX@)", [0xdd, 0xcb], true, 22, 4, 7, 7, 0⟩,
  ⟨b! "(IY@)", [0xfd, 0xcb], true, 22, 4, 7, 7, 0⟩,
  ⟨b! "B", [0xcb, 0x10], false, 0, 2, 2, 2, 0⟩,
  ⟨b! "C", [0xcb, 0x11], false, 0, 2, 2, 2, 0⟩,
  ⟨b! "D", [0xcb, 0x12], false, 0, 2, 2, 2, 0⟩,
  ⟨b! "E", [0xcb, 0x13], false, 0, 2, 2, 2, 0⟩,
  ⟨b! "H", [0xcb, 0x14], false, 0, 2, 2, 2, 0⟩,
  ⟨b! "L", [0xcb, 0x15], false, 0, 2, 2, 2, 0⟩,
  ⟨b! "(HL)", [0xcb, 0x16], false, 0, 2, 5, 5, 0⟩,
  ⟨b! "A", [0xcb, 0x17], false, 0, 2, 2, 2, 0⟩]

/-- opcodes_ez80.cpp:576-577 -/
def ez80_neg : List Instr := [
  ⟨b! "", [0xed, 0x44], false, 0, 2, 2, 2, 0⟩]

/-- opcodes_ez80.cpp:637-647 -/
def ez80_rlc : List Instr := [
  ⟨b! "(IX@)", [0xdd, 0xcb], true, 6, 4, 7, 7, 0⟩,
  ⟨b! "(IY@)", [0xfd, 0xcb], true, 6, 4, 7, 7, 0⟩,
  ⟨b! "B", [0xcb, 0x0], false, 0, 2, 2, 2, 0⟩,
  ⟨b! "C", [0xcb, 0x1], false, 0, 2, 2, 2, 0⟩,
  ⟨b! "D", [0xcb, 0x2], false, 0, 2, 2, 2, 0⟩,
  ⟨b! "E", [0xcb, 0x3], false, 0, 2, 2, 2, 0⟩,
  ⟨b! "H", [0xcb, 0x4], false, 0, 2, 2, 2, 0⟩,
  ⟨b! "L", [0xcb, 0x5], false, 0, 2, 2, 2, 0⟩,
  ⟨b! "(HL)", [0xcb, 0x6], false, 0, 2, 5, 5, 0⟩,
  ⟨b! "A", [0xcb, 0x7], false, 0, 2, 2, 2, 0⟩]

/-- opcodes_ez80.cpp:744-754 -/
def ez80_srl : List Instr := [
  ⟨b! "(IX@)", [0xdd, 0xcb], true, 62, 4, 7, 7, 0⟩,
  ⟨b! "(IY@)", [0xfd, 0xcb], true, 62, 4, 7, 7, 0⟩,
  ⟨b! "B", [0xcb, 0x38], false, 0, 2, 2, 2, 0⟩,
  ⟨b! "C", [0xcb, 0x39], false, 0, 2, 2, 2, 0⟩,
  ⟨b! "D", [0xcb, 0x3a], false, 0, 2, 2, 2, 0⟩,
  ⟨b! "E", [0xcb, 0x3b], false, 0, 2, 2, 2, 0⟩,
  ⟨b! "H", [0xcb, 0x3c], false, 0, 2, 2, 2, 0⟩,
  ⟨b! "L", [0xcb, 0x3d], false, 0, 2, 2, 2, 0⟩,
  ⟨b! "(HL)", [0xcb, 0x3e], false, 0, 2, 5, 5, 0⟩,
  ⟨b! "A", [0xcb, 0x3f], false, 0, 2, 2, 2, 0⟩]

/-- opcodes_ez80.cpp:670-679 -/
def ez80_rst : List Instr := [
  ⟨b! "00H", [0xc7], false, 0, 1, 5, 5, 1⟩,
  ⟨b! "08H", [0xcf], false, 0, 1, 5, 5, 1⟩,
  ⟨b! "10H", [0xd7], false, 0, 1, 5, 5, 1⟩,
  ⟨b! "18H", [0xdf], false, 0, 1, 5, 5, 1⟩,
  ⟨b! "20H", [0xe7], false, 0, 1, 5, 5, 1⟩,
  ⟨b! "28H", [0xef], false, 0, 1, 5, 5, 1⟩,
  ⟨b! "30H", [0xf7], false, 0, 1, 5, 5, 1⟩,
  ⟨b! "38H", [0xff], false, 0, 1, 5, 5, 1⟩,
  ⟨b! "#", [], false, 0, 1, 5, 5, 1⟩]

/-- opcodes_ez80.cpp:57-76 -/
def ez80_in : List Instr := [
  ⟨b! "A,(C)", [0xed, 0x78], false, 0, 2, 3, 3, 0⟩,
  ⟨b! "A,(BC)", [0xed, 0x78], false, 0, 2, 3, 3, 0⟩,
  ⟨b! "A,(&)", [0xdb], false, 0, 2, 3, 3, 0⟩,
  ⟨b! "B,(C)", [0xed, 0x40], false, 0, 2, 3, 3, 0⟩,
  ⟨b! "B,(BC)", [0xed, 0x40], false, 0, 2, 3, 3, 0⟩,
  ⟨b! "C,(C)", [0xed, 0x48], false, 0, 2, 3, 3, 0⟩,
  ⟨b! "C,(BC)", [0xed, 0x48], false, 0, 2, 3, 3, 0⟩,
  ⟨b! "D,(C)", [0xed, 0x50], false, 0, 2, 3, 3, 0⟩,
  ⟨b! "D,(BC)", [0xed, 0x50], false, 0, 2, 3, 3, 0⟩,
  ⟨b! "E,(C)", [0xed, 0x58], false, 0, 2, 3, 3, 0⟩,
  ⟨b! "E,(BC)", [0xed, 0x58], false, 0, 2, 3, 3, 0⟩,
  ⟨b! "H,(C)", [0xed, 0x60], false, 0, 2, 3, 3, 0⟩,
  ⟨b! "H,(BC)", [0xed, 0x60], false, 0, 2, 3, 3, 0⟩,
  ⟨b! "L,(C)", [0xed, 0x68], false, 0, 2, 3, 3, 0⟩,
  ⟨b! "L,(BC)", [0xed, 0x68], false, 0, 2, 3, 3, 0⟩,
  ⟨b! "F,(C)", [0xed, 0x70], false, 0, 2, 3, 3, 0⟩,
  ⟨b! "F,(BC)", [0xed, 0x70], false, 0, 2, 3, 3, 0⟩,
  ⟨b! "(C)", [0xed, 0x70], false, 0, 2, 3, 3, 0⟩,
  ⟨b! "(BC)", [0xed, 0x70], false, 0, 2, 3, 3, 0⟩]

/-- opcodes_ez80.cpp:872-873 -/
def ez80_lddr : List Instr := [
  ⟨b! "", [0xed, 0xb8], false, 0, 2, 3, 5, 0⟩]

/-- opcodes_ez80.cpp:42-43 -/
def ez80_ei : List Instr := [
  ⟨b! "", [0xfb], false, 0, 1, 1, 1, 0⟩]

/-- opcodes_ez80.cpp:52-55 -/
def ez80_im : List Instr := [
  ⟨b! "0", [0xed, 0x46], false, 0, 2, 2, 2, 0⟩,
  ⟨b! "1", [0xed, 0x56], false, 0, 2, 2, 2, 0⟩,
  ⟨b! "2", [0xed, 0x5e], false, 0, 2, 2, 2, 0⟩]

/-- opcodes_ez80.cpp:379-398 -/
def ez80_adc : List Instr := [
  ⟨b! "A,IXH", [0xdd, 0x8c], false, 0, 2, 2, 2, 0⟩,
  ⟨b! "A,IYH", [0xfd, 0x8c], false, 0, 2, 2, 2, 0⟩,
  ⟨b! "A,IXL", [0xdd, 0x8d], false, 0, 2, 2, 2, 0⟩,
  ⟨b! "A,IYL", [0xfd, 0x8d], false, 0, 2, 2, 2, 0⟩,
  ⟨b! "A,(IX@)", [0xdd, 0x8e], false, 0, 3, 4, 4, 0⟩,
  ⟨b! "A,(IY@)", [0xfd, 0x8e], false, 0, 3, 4, 4, 0⟩,
  ⟨b! "A,B", [0x88], false, 0, 1, 1, 1, 0⟩,
  ⟨b! "A,C", [0x89], false, 0, 1, 1, 1, 0⟩,
  ⟨b! "A,D", [0x8a], false, 0, 1, 1, 1, 0⟩,
  ⟨b! "A,E", [0x8b], false, 0, 1, 1, 1, 0⟩,
  ⟨b! "A,H", [0x8c], false, 0, 1, 1, 1, 0⟩,
  ⟨b! "A,L", [0x8d], false, 0, 1, 7, 7, 0⟩,
  ⟨b! "A,(HL)", [0x8e], false, 0, 1, 2, 2, 0⟩,
  ⟨b! "A,A", [0x8f], false, 0, 1, 1, 1, 0⟩,
  ⟨b! "A,&", [0xce], false, 0, 2, 2, 2, 0⟩,
  ⟨b! "HL,BC", [0xed, 0x4a], false, 0, 2, 2, 2, 0⟩,
  ⟨b! "HL,DE", [0xed, 0x5a], false, 0, 2, 2, 2, 0⟩,
  ⟨b! "HL,HL", [0xed, 0x6a], false, 0, 2, 2, 2, 0⟩,
  ⟨b! "HL,SP", [0xed, 0x7a], false, 0, 2, 2, 2, 0⟩]

/-- opcodes_ez80.cpp:485-486 -/
def ez80_daa : List Instr := [
  ⟨b! "", [0x27], false, 0, 1, 1, 1, 0⟩]

/-- opcodes_ez80.cpp:39-40 -/
def ez80_di : List Instr := [
  ⟨b! "", [0xf3], false, 0, 1, 1, 1, 0⟩]

/-- opcodes_ez80.cpp:579-580 -/
def ez80_nop : List Instr := [
  ⟨b! "", [0x0], false, 0, 1, 1, 1, 0⟩]

/-- opcodes_ez80.cpp:919-920 -/
def ez80_rlca : List Instr := [
  ⟨b! "", [0x7], false, 0, 1, 1, 1, 0⟩]

/-- opcodes_ez80.cpp:717-727 -/
def ez80_sla : List Instr := [
  ⟨b! "(IX@)", [0xdd, 0xcb], true, 38, 4, 7, 7, 0⟩,
  ⟨b! "(IY@)", [0xfd, 0xcb], true, 38, 4, 7, 7, 0⟩,
  ⟨b! "B", [0xcb, 0x20], false, 0, 2, 2, 2, 0⟩,
  ⟨b! "C", [0xcb, 0x21], false, 0, 2, 2, 2, 0⟩,
  ⟨b! "D", [0xcb, 0x22], false, 0, 2, 2, 2, 0⟩,
  ⟨b! "E", [0xcb, 0x23], false, 0, 2, 2, 2, 0⟩,
  ⟨b! "H", [0xcb, 0x24], false, 0, 2, 2, 2, 0⟩,
  ⟨b! "L", [0xcb, 0x25], false, 0, 2, 2, 2, 0⟩,
  ⟨b! "(HL)", [0xcb, 0x26], false, 0, 2, 5, 5, 0⟩,
  ⟨b! "A", [0xcb, 0x27], false, 0, 2, 2, 2, 0⟩]

/-- opcodes_ez80.cpp:555-556 -/
def ez80_ldi : List Instr := [
  ⟨b! "", [0xed, 0xa0], false, 0, 2, 5, 5, 0⟩]

/-- opcodes_ez80.cpp:473-474 -/
def ez80_ccf : List Instr := [
  ⟨b! "", [0x3f], false, 0, 1, 1, 1, 0⟩]

/-- opcodes_ez80.cpp:702-703 -/
def ez80_scf : List Instr := [
  ⟨b! "", [0x37], false, 0, 1, 1, 1, 0⟩]

/-- opcodes_ez80.cpp:655-665 -/
def ez80_rrc : List Instr := [
  ⟨b! "(IX@)", [0xdd, 0xcb], true, 14, 4, 7, 7, 0⟩,
  ⟨b! "(IY@)", [0xfd, 0xcb], true, 14, 4, 7, 7, 0⟩,
  ⟨b! "B", [0xcb, 0x8], false, 0, 2, 2, 2, 0⟩,
  ⟨b! "C", [0xcb, 0x9], false, 0, 2, 2, 2, 0⟩,
  ⟨b! "D", [0xcb, 0xa], false, 0, 2, 2, 2, 0⟩,
  ⟨b! "E", [0xcb, 0xb], false, 0, 2, 2, 2, 0⟩,
  ⟨b! "H", [0xcb, 0xc], false, 0, 2, 2, 2, 0⟩,
  ⟨b! "L", [0xcb, 0xd], false, 0, 2, 2, 2, 0⟩,
  ⟨b! "(HL)", [0xcb, 0xe], false, 0, 2, 5, 5, 0⟩,
  ⟨b! "A", [0xcb, 0xf], false, 0, 2, 2, 2, 0⟩]

/-- opcodes_ez80.cpp:851-852 -/
def ez80_halt : List Instr := [
  ⟨b! "", [0x76], false, 0, 1, 1, 1, 0⟩]

/-- opcodes_ez80.cpp:649-650 -/
def ez80_rld : List Instr := [
  ⟨b! "", [0xed, 0x6f], false, 0, 2, 5, 5, 0⟩]

/-- opcodes_ez80.cpp:788-797 -/
def ez80_tst : List Instr := [
  ⟨b! "A,B", [0xed, 0x4], false, 0, 2, 2, 2, 0⟩,
  ⟨b! "A,C", [0xed, 0xc], false, 0, 2, 2, 2, 0⟩,
  ⟨b! "A,D", [0xed, 0x14], false, 0, 2, 2, 2, 0⟩,
  ⟨b! "A,E", [0xed, 0x1c], false, 0, 2, 2, 2, 0⟩,
  ⟨b! "A,H", [0xed, 0x24], false, 0, 2, 2, 2, 0⟩,
  ⟨b! "A,L", [0xed, 0x2c], false, 0, 2, 2, 2, 0⟩,
  ⟨b! "A,(HL)", [0xed, 0x34], false, 0, 2, 3, 3, 0⟩,
  ⟨b! "A,A", [0xed, 0x3c], false, 0, 2, 2, 2, 0⟩,
  ⟨b! "A,&", [0xed, 0x64], false, 0, 3, 3, 3, 0⟩]

/-- opcodes_ez80.cpp:476-477 -/
def ez80_cpd : List Instr := [
  ⟨b! "", [0xed, 0xa9], false, 0, 2, 3, 3, 0⟩]

/-- opcodes_ez80.cpp:842-843 -/
def ez80_cpdr : List Instr := [
  ⟨b! "", [0xed, 0xb9], false, 0, 2, 3, 4, 0⟩]

/-- opcodes_ez80.cpp:479-480 -/
def ez80_cpi : List Instr := [
  ⟨b! "", [0xed, 0xa1], false, 0, 2, 3, 3, 0⟩]

/-- opcodes_ez80.cpp:845-846 -/
def ez80_cpir : List Instr := [
  ⟨b! "", [0xed, 0xb1], false, 0, 2, 3, 4, 0⟩]

/-- opcodes_ez80.cpp:546-547 -/
def ez80_ind : List Instr := [
  ⟨b! "", [0xed, 0xaa], false, 0, 2, 5, 5, 0⟩]

/-- opcodes_ez80.cpp:860-861 -/
def ez80_indr : List Instr := [
  ⟨b! "", [0xed, 0xba], false, 0, 2, 3, 5, 0⟩]

/-- opcodes_ez80.cpp:549-550 -/
def ez80_ini : List Instr := [
  ⟨b! "", [0xed, 0xa2], false, 0, 2, 5, 5, 0⟩]

/-- opcodes_ez80.cpp:869-870 -/
def ez80_inir : List Instr := [
  ⟨b! "", [0xed, 0xb2], false, 0, 2, 3, 5, 0⟩]

/-- opcodes_ez80.cpp:552-553 -/
def ez80_ldd : List Instr := [
  ⟨b! "", [0xed, 0xa8], false, 0, 2, 5, 5, 0⟩]

/-- opcodes_ez80.cpp:881-882 -/
def ez80_otdr : List Instr := [
  ⟨b! "", [0xed, 0xbb], false, 0, 2, 3, 5, 0⟩]

/-- opcodes_ez80.cpp:887-888 -/
def ez80_otir : List Instr := [
  ⟨b! "", [0xed, 0xb3], false, 0, 2, 3, 5, 0⟩]

/-- opcodes_ez80.cpp:899-900 -/
def ez80_outd : List Instr := [
  ⟨b! "", [0xed, 0xab], false, 0, 2, 5, 5, 0⟩]

/-- opcodes_ez80.cpp:902-903 -/
def ez80_outi : List Instr := [
  ⟨b! "", [0xed, 0xa3], false, 0, 2, 5, 5, 0⟩]

/-- opcodes_ez80.cpp:913-914 -/
def ez80_reti : List Instr := [
  ⟨b! "", [0xed, 0x4d], false, 0, 2, 6, 6, 1⟩]

/-- opcodes_ez80.cpp:916-917 -/
def ez80_retn : List Instr := [
  ⟨b! "", [0xed, 0x45], false, 0, 2, 6, 6, 1⟩]

/-- opcodes_ez80.cpp:922-923 -/
def ez80_rrca : List Instr := [
  ⟨b! "", [0xf], false, 0, 1, 1, 1, 0⟩]

/-- opcodes_ez80.cpp:667-668 -/
def ez80_rrd : List Instr := [
  ⟨b! "", [0xed, 0x67], false, 0, 2, 5, 5, 0⟩]

/-- opcodes_ez80.cpp:558-568 -/
def ez80_lea : List Instr := [
  ⟨b! "BC,IX@", [0xed, 0x2], false, 0, 3, 3, 3, 0⟩,
  ⟨b! "BC,IY@", [0xed, 0x3], false, 0, 3, 3, 3, 0⟩,
  ⟨b! "DE,IX@", [0xed, 0x12], false, 0, 3, 3, 3, 0⟩,
  ⟨b! "DE,IY@", [0xed, 0x13], false, 0, 3, 3, 3, 0⟩,
  ⟨b! "HL,IX@", [0xed, 0x22], false, 0, 3, 3, 3, 0⟩,
  ⟨b! "HL,IY@", [0xed, 0x23], false, 0, 3, 3, 3, 0⟩,
  ⟨b! "IX,IX@", [0xed, 0x32], false, 0, 3, 3, 3, 0⟩,
  ⟨b! "IY,IY@", [0xed, 0x33], false, 0, 3, 3, 3, 0⟩,
  ⟨b! "IX,IY@", [0xed, 0x54], false, 0, 3, 3, 3, 0⟩,
  ⟨b! "IY,IX@", [0xed, 0x55], false, 0, 3, 3, 3, 0⟩]

/-- opcodes_ez80.cpp:599-601 -/
def ez80_pea : List Instr := [
  ⟨b! "IX@", [0xed, 0x65], false, 0, 3, 5, 5, 1⟩,
  ⟨b! "IY@", [0xed, 0x66], false, 0, 3, 5, 5, 1⟩]

/-- opcodes_ez80.cpp:570-574 -/
def ez80_mlt : List Instr := [
  ⟨b! "BC", [0xed, 0x4c], false, 0, 2, 6, 6, 0⟩,
  ⟨b! "DE", [0xed, 0x5c], false, 0, 2, 6, 6, 0⟩,
  ⟨b! "HL", [0xed, 0x6c], false, 0, 2, 6, 6, 0⟩,
  ⟨b! "SP", [0xed, 0x7c], false, 0, 2, 6, 6, 0⟩]

/-- opcodes_ez80.cpp:854-855 -/
def ez80_ind2 : List Instr := [
  ⟨b! "", [0xed, 0x8c], false, 0, 2, 5, 5, 0⟩]

/-- opcodes_ez80.cpp:857-858 -/
def ez80_indm : List Instr := [
  ⟨b! "", [0xed, 0x8a], false, 0, 2, 5, 5, 0⟩]

/-- opcodes_ez80.cpp:863-864 -/
def ez80_ini2 : List Instr := [
  ⟨b! "", [0xed, 0x84], false, 0, 2, 5, 5, 0⟩]

/-- opcodes_ez80.cpp:866-867 -/
def ez80_inim : List Instr := [
  ⟨b! "", [0xed, 0x82], false, 0, 2, 5, 5, 0⟩]

/-- opcodes_ez80.cpp:878-879 -/
def ez80_otdm : List Instr := [
  ⟨b! "", [0xed, 0x8b], false, 0, 2, 5, 5, 0⟩]

/-- opcodes_ez80.cpp:884-885 -/
def ez80_otim : List Instr := [
  ⟨b! "", [0xed, 0x83], false, 0, 2, 5, 5, 0⟩]

/-- opcodes_ez80.cpp:890-897 -/
def ez80_out0 : List Instr := [
  ⟨b! "(&),B", [0xed, 0x1], false, 0, 3, 4, 4, 0⟩,
  ⟨b! "(&),C", [0xed, 0x9], false, 0, 3, 4, 4, 0⟩,
  ⟨b! "(&),D", [0xed, 0x11], false, 0, 3, 4, 4, 0⟩,
  ⟨b! "(&),E", [0xed, 0x19], false, 0, 3, 4, 4, 0⟩,
  ⟨b! "(&),H", [0xed, 0x21], false, 0, 3, 4, 4, 0⟩,
  ⟨b! "(&),L", [0xed, 0x29], false, 0, 3, 4, 4, 0⟩,
  ⟨b! "(&),A", [0xed, 0x39], false, 0, 3, 4, 4, 0⟩]

/-- opcodes_ez80.cpp:535-544 -/
def ez80_in0 : List Instr := [
  ⟨b! "B,(&)", [0xed, 0x0], false, 0, 3, 4, 4, 0⟩,
  ⟨b! "C,(&)", [0xed, 0x8], false, 0, 3, 4, 4, 0⟩,
  ⟨b! "D,(&)", [0xed, 0x10], false, 0, 3, 4, 4, 0⟩,
  ⟨b! "E,(&)", [0xed, 0x18], false, 0, 3, 4, 4, 0⟩,
  ⟨b! "H,(&)", [0xed, 0x20], false, 0, 3, 4, 4, 0⟩,
  ⟨b! "L,(&)", [0xed, 0x28], false, 0, 3, 4, 4, 0⟩,
  ⟨b! "A,(&)", [0xed, 0x38], false, 0, 3, 4, 4, 0⟩,
  ⟨b! "F,(&)", [0xed, 0x30], false, 0, 3, 4, 4, 0⟩,
  ⟨b! "(&)", [0xed, 0x30], false, 0, 3, 4, 4, 0⟩]

/-- opcodes_ez80.cpp:729-730 -/
def ez80_slp : List Instr := [
  ⟨b! "", [0xed, 0x76], false, 0, 2, 2, 2, 0⟩]

/-- opcodes_ez80.cpp:925-926 -/
def ez80_ind2r : List Instr := [
  ⟨b! "", [0xed, 0x9c], false, 0, 2, 3, 5, 0⟩]

/-- opcodes_ez80.cpp:928-929 -/
def ez80_indmr : List Instr := [
  ⟨b! "", [0xed, 0x9a], false, 0, 2, 3, 5, 0⟩]

/-- opcodes_ez80.cpp:931-932 -/
def ez80_indrx : List Instr := [
  ⟨b! "", [0xed, 0xca], false, 0, 2, 3, 5, 0⟩]

/-- opcodes_ez80.cpp:934-935 -/
def ez80_ini2r : List Instr := [
  ⟨b! "", [0xed, 0x94], false, 0, 2, 3, 5, 0⟩]

/-- opcodes_ez80.cpp:937-938 -/
def ez80_inimr : List Instr := [
  ⟨b! "", [0xed, 0x92], false, 0, 2, 3, 5, 0⟩]

/-- opcodes_ez80.cpp:940-941 -/
def ez80_inirx : List Instr := [
  ⟨b! "", [0xed, 0xc2], false, 0, 2, 3, 5, 0⟩]

/-- opcodes_ez80.cpp:943-944 -/
def ez80_otd2r : List Instr := [
  ⟨b! "", [0xed, 0xbc], false, 0, 2, 3, 5, 0⟩]

/-- opcodes_ez80.cpp:946-947 -/
def ez80_otdmr : List Instr := [
  ⟨b! "", [0xed, 0x9b], false, 0, 2, 3, 5, 0⟩]

/-- opcodes_ez80.cpp:949-950 -/
def ez80_otdrx : List Instr := [
  ⟨b! "", [0xed, 0xcb], false, 0, 2, 3, 5, 0⟩]

/-- opcodes_ez80.cpp:952-953 -/
def ez80_oti2r : List Instr := [
  ⟨b! "", [0xed, 0xb4], false, 0, 2, 3, 5, 0⟩]

/-- opcodes_ez80.cpp:955-956 -/
def ez80_otimr : List Instr := [
  ⟨b! "", [0xed, 0x93], false, 0, 2, 3, 5, 0⟩]

/-- opcodes_ez80.cpp:958-959 -/
def ez80_otirx : List Instr := [
  ⟨b! "", [0xed, 0xc3], false, 0, 2, 3, 5, 0⟩]

/-- opcodes_ez80.cpp:961-962 -/
def ez80_outd2 : List Instr := [
  ⟨b! "", [0xed, 0xac], false, 0, 2, 5, 5, 0⟩]

/-- opcodes_ez80.cpp:964-965 -/
def ez80_outi2 : List Instr := [
  ⟨b! "", [0xed, 0xa4], false, 0, 2, 5, 5, 0⟩]

/-- opcodes_ez80.cpp:967-968 -/
def ez80_rsmix : List Instr := [
  ⟨b! "", [0xed, 0x7e], false, 0, 2, 2, 2, 0⟩]

/-- opcodes_ez80.cpp:970-971 -/
def ez80_stmix : List Instr := [
  ⟨b! "", [0xed, 0x7d], false, 0, 2, 2, 2, 0⟩]

/-- opcodes_ez80.cpp:973-974 -/
def ez80_tstio : List Instr := [
  ⟨b! "&", [0xed, 0x74], false, 0, 3, 4, 4, 0⟩]

/-- opcode_list_ez80, opcodes_ez80.cpp:976-1074 -/
def ez80Table : List Opcode := [
  ⟨b! "LD", ez80_ld⟩,
  ⟨b! "CALL", ez80_call⟩,
  ⟨b! "RET", ez80_ret⟩,
  ⟨b! "JR", ez80_jr⟩,
  ⟨b! "JP", ez80_jp⟩,
  ⟨b! "ADD", ez80_add⟩,
  ⟨b! "INC", ez80_inc⟩,
  ⟨b! "POP", ez80_pop⟩,
  ⟨b! "PUSH", ez80_push⟩,
  ⟨b! "DEC", ez80_dec⟩,
  ⟨b! "CP", ez80_cp⟩,
  ⟨b! "OR", ez80_or⟩,
  ⟨b! "EX", ez80_ex⟩,
  ⟨b! "XOR", ez80_xor⟩,
  ⟨b! "EXX", ez80_exx⟩,
  ⟨b! "SUB", ez80_sub⟩,
  ⟨b! "AND", ez80_and⟩,
  ⟨b! "SET", ez80_set⟩,
  ⟨b! "BIT", ez80_bit⟩,
  ⟨b! "DJNZ", ez80_djnz⟩,
  ⟨b! "RRA", ez80_rra⟩,
  ⟨b! "RR", ez80_rr⟩,
  ⟨b! "SRA", ez80_sra⟩,
  ⟨b! "RES", ez80_res⟩,
  ⟨b! "LDIR", ez80_ldir⟩,
  ⟨b! "RLA", ez80_rla⟩,
  ⟨b! "OUT", ez80_out⟩,
  ⟨b! "SBC", ez80_sbc⟩,
  ⟨b! "CPL", ez80_cpl⟩,
  ⟨b! "RL", ez80_rl⟩,
  ⟨b! "NEG", ez80_neg⟩,
  ⟨b! "RLC", ez80_rlc⟩,
  ⟨b! "SRL", ez80_srl⟩,
  ⟨b! "RST", ez80_rst⟩,
  ⟨b! "IN", ez80_in⟩,
  ⟨b! "LDDR", ez80_lddr⟩,
  ⟨b! "EI", ez80_ei⟩,
  ⟨b! "IM", ez80_im⟩,
  ⟨b! "ADC", ez80_adc⟩,
  ⟨b! "DAA", ez80_daa⟩,
  ⟨b! "DI", ez80_di⟩,
  ⟨b! "NOP", ez80_nop⟩,
  ⟨b! "RLCA", ez80_rlca⟩,
  ⟨b! "SLA", ez80_sla⟩,
  ⟨b! "LDI", ez80_ldi⟩,
  ⟨b! "CCF", ez80_ccf⟩,
  ⟨b! "SCF", ez80_scf⟩,
  ⟨b! "RRC", ez80_rrc⟩,
  ⟨b! "HALT", ez80_halt⟩,
  ⟨b! "RLD", ez80_rld⟩,
  ⟨b! "TST", ez80_tst⟩,
  ⟨b! "CPD", ez80_cpd⟩,
  ⟨b! "CPDR", ez80_cpdr⟩,
  ⟨b! "CPI", ez80_cpi⟩,
  ⟨b! "CPIR", ez80_cpir⟩,
  ⟨b! "IND", ez80_ind⟩,
  ⟨b! "INDR", ez80_indr⟩,
  ⟨b! "INI", ez80_ini⟩,
  ⟨b! "INIR", ez80_inir⟩,
  ⟨b! "LDD", ez80_ldd⟩,
  ⟨b! "OTDR", ez80_otdr⟩,
  ⟨b! "OTIR", ez80_otir⟩,
  ⟨b! "OUTD", ez80_outd⟩,
  ⟨b! "OUTI", ez80_outi⟩,
  ⟨b! "RETI", ez80_reti⟩,
  ⟨b! "RETN", ez80_retn⟩,
  ⟨b! "RRCA", ez80_rrca⟩,
  ⟨b! "RRD", ez80_rrd⟩,
  ⟨b! "LEA", ez80_lea⟩,
  ⟨b! "PEA", ez80_pea⟩,
  ⟨b! "MLT", ez80_mlt⟩,
  ⟨b! "IND2", ez80_ind2⟩,
  ⟨b! "INDM", ez80_indm⟩,
  ⟨b! "INI2", ez80_ini2⟩,
  ⟨b! "INIM", ez80_inim⟩,
  ⟨b! "OTDM", ez80_otdm⟩,
  ⟨b! "OTIM", ez80_otim⟩,
  ⟨b! "OUT0", ez80_out0⟩,
  ⟨b! "IN0", ez80_in0⟩,
  ⟨b! "SLP", ez80_slp⟩,
  ⟨b! "IND2R", ez80_ind2r⟩,
  ⟨b! "INDMR", ez80_indmr⟩,
  ⟨b! "INDRX", ez80_indrx⟩,
  ⟨b! "INI2R", ez80_ini2r⟩,
  ⟨b! "INIMR", ez80_inimr⟩,
  ⟨b! "INIRX", ez80_inirx⟩,
  ⟨b! "OTD2R", ez80_otd2r⟩,
  ⟨b! "OTDMR", ez80_otdmr⟩,
  ⟨b! "OTDRX", ez80_otdrx⟩,
  ⟨b! "OTI2R", ez80_oti2r⟩,
  ⟨b! "OTIMR", ez80_otimr⟩,
  ⟨b! "OTIRX", ez80_otirx⟩,
  ⟨b! "OUTD2", ez80_outd2⟩,
  ⟨b! "OUTI2", ez80_outi2⟩,
  ⟨b! "RSMIX", ez80_rsmix⟩,
  ⟨b! "STMIX", ez80_stmix⟩,
  ⟨b! "TSTIO", ez80_tstio⟩]

end Spasm
