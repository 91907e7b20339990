import Verif.Model.State

/-
The instruction table of opcodes.cpp, translated entry by entry by a script. The bytes are listed in emission
order: write_instruction_data (pass_one.cpp:679) writes `instr_data` from its last element to its first.
The last three numbers are the execution times and what ADL mode adds to them.
-/

namespace Spasm

/-- opcodes.cpp:89-275 -/
def z80_ld : List Instr := [
  ⟨b! "SP,HL", [0xf9], false, 0, 1, 6, 6, 0⟩,
  ⟨b! "A,I", [0xed, 0x57], false, 0, 2, 9, 9, 0⟩,
  ⟨b! "A,R", [0xed, 0x5f], false, 0, 2, 9, 9, 0⟩,
  ⟨b! "IXH,B", [0xdd, 0x60], false, 0, 2, 8, 8, 0⟩,
  ⟨b! "IYH,B", [0xfd, 0x60], false, 0, 2, 8, 8, 0⟩,
  ⟨b! "IXH,C", [0xdd, 0x61], false, 0, 2, 8, 8, 0⟩,
  ⟨b! "IYH,C", [0xfd, 0x61], false, 0, 2, 8, 8, 0⟩,
  ⟨b! "IXH,D", [0xdd, 0x62], false, 0, 2, 8, 8, 0⟩,
  ⟨b! "IYH,D", [0xfd, 0x62], false, 0, 2, 8, 8, 0⟩,
  ⟨b! "IXH,E", [0xdd, 0x63], false, 0, 2, 8, 8, 0⟩,
  ⟨b! "IYH,E", [0xfd, 0x63], false, 0, 2, 8, 8, 0⟩,
  ⟨b! "IXH,IXH", [0xdd, 0x64], false, 0, 2, 8, 8, 0⟩,
  ⟨b! "IYH,IYH", [0xfd, 0x64], false, 0, 2, 8, 8, 0⟩,
  ⟨b! "IXH,IXL", [0xdd, 0x65], false, 0, 2, 8, 8, 0⟩,
  ⟨b! "IYH,IYL", [0xfd, 0x65], false, 0, 2, 8, 8, 0⟩,
  ⟨b! "H,(IX@)", [0xdd, 0x66], false, 0, 3, 19, 19, 0⟩,
  ⟨b! "H,(IY@)", [0xfd, 0x66], false, 0, 3, 19, 19, 0⟩,
  ⟨b! "IXH,A", [0xdd, 0x67], false, 0, 2, 8, 8, 0⟩,
  ⟨b! "IYH,A", [0xfd, 0x67], false, 0, 2, 8, 8, 0⟩,
  ⟨b! "IXL,B", [0xdd, 0x68], false, 0, 2, 8, 8, 0⟩,
  ⟨b! "IYL,B", [0xfd, 0x68], false, 0, 2, 8, 8, 0⟩,
  ⟨b! "IXL,C", [0xdd, 0x69], false, 0, 2, 8, 8, 0⟩,
  ⟨b! "IYL,C", [0xfd, 0x69], false, 0, 2, 8, 8, 0⟩,
  ⟨b! "IXL,D", [0xdd, 0x6a], false, 0, 2, 8, 8, 0⟩,
  ⟨b! "IYL,D", [0xfd, 0x6a], false, 0, 2, 8, 8, 0⟩,
  ⟨b! "IXL,E", [0xdd, 0x6b], false, 0, 2, 8, 8, 0⟩,
  ⟨b! "IYL,E", [0xfd, 0x6b], false, 0, 2, 8, 8, 0⟩,
  ⟨b! "IXL,IXH", [0xdd, 0x6c], false, 0, 2, 8, 8, 0⟩,
  ⟨b! "IYL,IYH", [0xfd, 0x6c], false, 0, 2, 8, 8, 0⟩,
  ⟨b! "IXL,IXL", [0xdd, 0x6d], false, 0, 2, 8, 8, 0⟩,
  ⟨b! "IYL,IYL", [0xfd, 0x6d], false, 0, 2, 8, 8, 0⟩,
  ⟨b! "L,(IX@)", [0xdd, 0x6e], false, 0, 3, 19, 19, 0⟩,
  ⟨b! "L,(IY@)", [0xfd, 0x6e], false, 0, 3, 19, 19, 0⟩,
  ⟨b! "IXL,A", [0xdd, 0x6f], false, 0, 2, 8, 8, 0⟩,
  ⟨b! "IYL,A", [0xfd, 0x6f], false, 0, 2, 8, 8, 0⟩,
  ⟨b! "(*),IX", [0xdd, 0x22], false, 0, 4, 20, 20, 0⟩,
  ⟨b! "(*),IY", [0xfd, 0x22], false, 0, 4, 20, 20, 0⟩,
  ⟨b! "IXH,&", [0xdd, 0x26], false, 0, 3, 11, 11, 0⟩,
  ⟨b! "IYH,&", [0xfd, 0x26], false, 0, 3, 11, 11, 0⟩,
  ⟨b! "IX,(*)", [0xdd, 0x2a], false, 0, 4, 20, 20, 0⟩,
  ⟨b! "IY,(*)", [0xfd, 0x2a], false, 0, 4, 20, 20, 0⟩,
  ⟨b! "IXL,&", [0xdd, 0x2e], false, 0, 3, 11, 11, 0⟩,
  ⟨b! "IYL,&", [0xfd, 0x2e], false, 0, 3, 11, 11, 0⟩,
  ⟨b! "B,IXH", [0xdd, 0x44], false, 0, 2, 8, 8, 0⟩,
  ⟨b! "B,IYH", [0xfd, 0x44], false, 0, 2, 8, 8, 0⟩,
  ⟨b! "B,IXL", [0xdd, 0x45], false, 0, 2, 8, 8, 0⟩,
  ⟨b! "B,IYL", [0xfd, 0x45], false, 0, 2, 8, 8, 0⟩,
  ⟨b! "B,(IX@)", [0xdd, 0x46], false, 0, 3, 19, 19, 0⟩,
  ⟨b! "B,(IY@)", [0xfd, 0x46], false, 0, 3, 19, 19, 0⟩,
  ⟨b! "C,IXH", [0xdd, 0x4c], false, 0, 2, 8, 8, 0⟩,
  ⟨b! "C,IYH", [0xfd, 0x4c], false, 0, 2, 8, 8, 0⟩,
  ⟨b! "C,IXL", [0xdd, 0x4d], false, 0, 2, 8, 8, 0⟩,
  ⟨b! "C,IYL", [0xfd, 0x4d], false, 0, 2, 8, 8, 0⟩,
  ⟨b! "C,(IX@)", [0xdd, 0x4e], false, 0, 3, 19, 19, 0⟩,
  ⟨b! "C,(IY@)", [0xfd, 0x4e], false, 0, 3, 19, 19, 0⟩,
  ⟨b! "D,IXH", [0xdd, 0x54], false, 0, 2, 8, 8, 0⟩,
  ⟨b! "D,IYH", [0xfd, 0x54], false, 0, 2, 8, 8, 0⟩,
  ⟨b! "D,IXL", [0xdd, 0x55], false, 0, 2, 8, 8, 0⟩,
  ⟨b! "D,IYL", [0xfd, 0x55], false, 0, 2, 8, 8, 0⟩,
  ⟨b! "D,(IX@)", [0xdd, 0x56], false, 0, 3, 19, 19, 0⟩,
  ⟨b! "D,(IY@)", [0xfd, 0x56], false, 0, 3, 19, 19, 0⟩,
  ⟨b! "E,IXH", [0xdd, 0x5c], false, 0, 2, 8, 8, 0⟩,
  ⟨b! "E,IYH", [0xfd, 0x5c], false, 0, 2, 8, 8, 0⟩,
  ⟨b! "E,IXL", [0xdd, 0x5d], false, 0, 2, 8, 8, 0⟩,
  ⟨b! "E,IYL", [0xfd, 0x5d], false, 0, 2, 8, 8, 0⟩,
  ⟨b! "E,(IX@)", [0xdd, 0x5e], false, 0, 3, 19, 19, 0⟩,
  ⟨b! "E,(IY@)", [0xfd, 0x5e], false, 0, 3, 19, 19, 0⟩,
  ⟨b! "(IX@),B", [0xdd, 0x70], false, 0, 3, 19, 19, 0⟩,
  ⟨b! "(IY@),B", [0xfd, 0x70], false, 0, 3, 19, 19, 0⟩,
  ⟨b! "(IX@),C", [0xdd, 0x71], false, 0, 3, 19, 19, 0⟩,
  ⟨b! "(IY@),C", [0xfd, 0x71], false, 0, 3, 19, 19, 0⟩,
  ⟨b! "(IX@),D", [0xdd, 0x72], false, 0, 3, 19, 19, 0⟩,
  ⟨b! "(IY@),D", [0xfd, 0x72], false, 0, 3, 19, 19, 0⟩,
  ⟨b! "(IX@),E", [0xdd, 0x73], false, 0, 3, 19, 19, 0⟩,
  ⟨b! "(IY@),E", [0xfd, 0x73], false, 0, 3, 19, 19, 0⟩,
  ⟨b! "(IX@),H", [0xdd, 0x74], false, 0, 3, 19, 19, 0⟩,
  ⟨b! "(IY@),H", [0xfd, 0x74], false, 0, 3, 19, 19, 0⟩,
  ⟨b! "(IX@),L", [0xdd, 0x75], false, 0, 3, 19, 19, 0⟩,
  ⟨b! "(IY@),L", [0xfd, 0x75], false, 0, 3, 19, 19, 0⟩,
  ⟨b! "(IX@),A", [0xdd, 0x77], false, 0, 3, 19, 19, 0⟩,
  ⟨b! "(IY@),A", [0xfd, 0x77], false, 0, 3, 19, 19, 0⟩,
  ⟨b! "A,IXH", [0xdd, 0x7c], false, 0, 2, 8, 8, 0⟩,
  ⟨b! "A,IYH", [0xfd, 0x7c], false, 0, 2, 8, 8, 0⟩,
  ⟨b! "A,IXL", [0xdd, 0x7d], false, 0, 2, 8, 8, 0⟩,
  ⟨b! "A,IYL", [0xfd, 0x7d], false, 0, 2, 8, 8, 0⟩,
  ⟨b! "A,(IX@)", [0xdd, 0x7e], false, 0, 3, 19, 19, 0⟩,
  ⟨b! "A,(IY@)", [0xfd, 0x7e], false, 0, 3, 19, 19, 0⟩,
  ⟨b! "(IX@),&", [0xdd, 0x36], false, 0, 4, 19, 19, 0⟩,
  ⟨b! "(IY@),&", [0xfd, 0x36], false, 0, 4, 19, 19, 0⟩,
  ⟨b! "SP,IX", [0xdd, 0xf9], false, 0, 2, 10, 10, 0⟩,
  ⟨b! "SP,IY", [0xfd, 0xf9], false, 0, 2, 10, 10, 0⟩,
  ⟨b! "B,B", [0x40], false, 0, 1, 4, 4, 0⟩,
  ⟨b! "B,C", [0x41], false, 0, 1, 4, 4, 0⟩,
  ⟨b! "B,D", [0x42], false, 0, 1, 4, 4, 0⟩,
  ⟨b! "B,E", [0x43], false, 0, 1, 4, 4, 0⟩,
  ⟨b! "B,H", [0x44], false, 0, 1, 4, 4, 0⟩,
  ⟨b! "B,L", [0x45], false, 0, 1, 4, 4, 0⟩,
  ⟨b! "B,(HL)", [0x46], false, 0, 1, 7, 7, 0⟩,
  ⟨b! "B,A", [0x47], false, 0, 1, 4, 4, 0⟩,
  ⟨b! "C,B", [0x48], false, 0, 1, 4, 4, 0⟩,
  ⟨b! "C,C", [0x49], false, 0, 1, 4, 4, 0⟩,
  ⟨b! "C,D", [0x4a], false, 0, 1, 4, 4, 0⟩,
  ⟨b! "C,E", [0x4b], false, 0, 1, 4, 4, 0⟩,
  ⟨b! "C,H", [0x4c], false, 0, 1, 4, 4, 0⟩,
  ⟨b! "C,L", [0x4d], false, 0, 1, 4, 4, 0⟩,
  ⟨b! "C,(HL)", [0x4e], false, 0, 1, 7, 7, 0⟩,
  ⟨b! "C,A", [0x4f], false, 0, 1, 4, 4, 0⟩,
  ⟨b! "D,B", [0x50], false, 0, 1, 4, 4, 0⟩,
  ⟨b! "D,C", [0x51], false, 0, 1, 4, 4, 0⟩,
  ⟨b! "D,D", [0x52], false, 0, 1, 4, 4, 0⟩,
  ⟨b! "D,E", [0x53], false, 0, 1, 4, 4, 0⟩,
  ⟨b! "D,H", [0x54], false, 0, 1, 4, 4, 0⟩,
  ⟨b! "D,L", [0x55], false, 0, 1, 4, 4, 0⟩,
  ⟨b! "D,(HL)", [0x56], false, 0, 1, 7, 7, 0⟩,
  ⟨b! "D,A", [0x57], false, 0, 1, 4, 4, 0⟩,
  ⟨b! "E,B", [0x58], false, 0, 1, 4, 4, 0⟩,
  ⟨b! "E,C", [0x59], false, 0, 1, 4, 4, 0⟩,
  ⟨b! "E,D", [0x5a], false, 0, 1, 4, 4, 0⟩,
  ⟨b! "E,E", [0x5b], false, 0, 1, 4, 4, 0⟩,
  ⟨b! "E,H", [0x5c], false, 0, 1, 4, 4, 0⟩,
  ⟨b! "E,L", [0x5d], false, 0, 1, 4, 4, 0⟩,
  ⟨b! "E,(HL)", [0x5e], false, 0, 1, 7, 7, 0⟩,
  ⟨b! "E,A", [0x5f], false, 0, 1, 4, 4, 0⟩,
  ⟨b! "H,B", [0x60], false, 0, 1, 4, 4, 0⟩,
  ⟨b! "H,C", [0x61], false, 0, 1, 4, 4, 0⟩,
  ⟨b! "H,D", [0x62], false, 0, 1, 4, 4, 0⟩,
  ⟨b! "H,E", [0x63], false, 0, 1, 4, 4, 0⟩,
  ⟨b! "H,H", [0x64], false, 0, 1, 4, 4, 0⟩,
  ⟨b! "H,L", [0x65], false, 0, 1, 4, 4, 0⟩,
  ⟨b! "H,(HL)", [0x66], false, 0, 1, 7, 7, 0⟩,
  ⟨b! "H,A", [0x67], false, 0, 1, 4, 4, 0⟩,
  ⟨b! "L,B", [0x68], false, 0, 1, 4, 4, 0⟩,
  ⟨b! "L,C", [0x69], false, 0, 1, 4, 4, 0⟩,
  ⟨b! "L,D", [0x6a], false, 0, 1, 4, 4, 0⟩,
  ⟨b! "L,E", [0x6b], false, 0, 1, 4, 4, 0⟩,
  ⟨b! "L,H", [0x6c], false, 0, 1, 4, 4, 0⟩,
  ⟨b! "L,L", [0x6d], false, 0, 1, 4, 4, 0⟩,
  ⟨b! "L,(HL)", [0x6e], false, 0, 1, 7, 7, 0⟩,
  ⟨b! "L,A", [0x6f], false, 0, 1, 4, 4, 0⟩,
  ⟨b! "(HL),B", [0x70], false, 0, 1, 7, 7, 0⟩,
  ⟨b! "(HL),C", [0x71], false, 0, 1, 7, 7, 0⟩,
  ⟨b! "(HL),D", [0x72], false, 0, 1, 7, 7, 0⟩,
  ⟨b! "(HL),E", [0x73], false, 0, 1, 7, 7, 0⟩,
  ⟨b! "(HL),H", [0x74], false, 0, 1, 7, 7, 0⟩,
  ⟨b! "(HL),L", [0x75], false, 0, 1, 7, 7, 0⟩,
  ⟨b! "(HL),A", [0x77], false, 0, 1, 7, 7, 0⟩,
  ⟨b! "A,B", [0x78], false, 0, 1, 4, 4, 0⟩,
  ⟨b! "A,C", [0x79], false, 0, 1, 4, 4, 0⟩,
  ⟨b! "A,D", [0x7a], false, 0, 1, 4, 4, 0⟩,
  ⟨b! "A,E", [0x7b], false, 0, 1, 4, 4, 0⟩,
  ⟨b! "A,H", [0x7c], false, 0, 1, 4, 4, 0⟩,
  ⟨b! "A,L", [0x7d], false, 0, 1, 4, 4, 0⟩,
  ⟨b! "A,(HL)", [0x7e], false, 0, 1, 7, 7, 0⟩,
  ⟨b! "A,A", [0x7f], false, 0, 1, 4, 4, 0⟩,
  ⟨b! "(BC),A", [0x2], false, 0, 1, 7, 7, 0⟩,
  ⟨b! "B,&", [0x6], false, 0, 2, 7, 7, 0⟩,
  ⟨b! "A,(BC)", [0xa], false, 0, 1, 7, 7, 0⟩,
  ⟨b! "C,&", [0xe], false, 0, 2, 7, 7, 0⟩,
  ⟨b! "(DE),A", [0x12], false, 0, 1, 7, 7, 0⟩,
  ⟨b! "D,&", [0x16], false, 0, 2, 7, 7, 0⟩,
  ⟨b! "A,(DE)", [0x1a], false, 0, 1, 7, 7, 0⟩,
  ⟨b! "E,&", [0x1e], false, 0, 2, 7, 7, 0⟩,
  ⟨b! "(*),HL", [0x22], false, 0, 3, 16, 16, 0⟩,
  ⟨b! "H,&", [0x26], false, 0, 2, 7, 7, 0⟩,
  ⟨b! "HL,(*)", [0x2a], false, 0, 3, 16, 16, 0⟩,
  ⟨b! "L,&", [0x2e], false, 0, 2, 7, 7, 0⟩,
  ⟨b! "(*),A", [0x32], false, 0, 3, 13, 13, 0⟩,
  ⟨b! "(HL),&", [0x36], false, 0, 2, 10, 10, 0⟩,
  ⟨b! "A,(*)", [0x3a], false, 0, 3, 13, 13, 0⟩,
  ⟨b! "A,&", [0x3e], false, 0, 2, 7, 7, 0⟩,
  ⟨b! "(*),BC", [0xed, 0x43], false, 0, 4, 20, 20, 0⟩,
  ⟨b! "I,A", [0xed, 0x47], false, 0, 2, 9, 9, 0⟩,
  ⟨b! "BC,(*)", [0xed, 0x4b], false, 0, 4, 20, 20, 0⟩,
  ⟨b! "R,A", [0xed, 0x4f], false, 0, 2, 9, 9, 0⟩,
  ⟨b! "(*),DE", [0xed, 0x53], false, 0, 4, 20, 20, 0⟩,
  ⟨b! "DE,(*)", [0xed, 0x5b], false, 0, 4, 20, 20, 0⟩,
  ⟨b! "(*),HL", [0xed, 0x63], false, 0, 4, 20, 20, 0⟩,
  ⟨b! "HL,(*)", [0xed, 0x6b], false, 0, 4, 20, 20, 0⟩,
  ⟨b! "(*),SP", [0xed, 0x73], false, 0, 4, 20, 20, 0⟩,
  ⟨b! "SP,(*)", [0xed, 0x7b], false, 0, 4, 20, 20, 0⟩,
  ⟨b! "HL,*", [0x21], false, 0, 3, 10, 10, 0⟩,
  ⟨b! "BC,*", [0x1], false, 0, 3, 10, 10, 0⟩,
  ⟨b! "DE,*", [0x11], false, 0, 3, 10, 10, 0⟩,
  ⟨b! "IX,*", [0xdd, 0x21], false, 0, 4, 14, 14, 0⟩,
  ⟨b! "IY,*", [0xfd, 0x21], false, 0, 4, 14, 14, 0⟩,
  ⟨b! "SP,*", [0x31], false, 0, 3, 10, 10, 0⟩]

/-- opcodes.cpp:912-921 -/
def z80_call : List Instr := [
  ⟨b! "NZ,*", [0xc4], false, 0, 3, 10, 17, 0⟩,
  ⟨b! "Z,*", [0xcc], false, 0, 3, 10, 17, 0⟩,
  ⟨b! "NC,*", [0xd4], false, 0, 3, 10, 17, 0⟩,
  ⟨b! "C,*", [0xdc], false, 0, 3, 10, 17, 0⟩,
  ⟨b! "PO,*", [0xe4], false, 0, 3, 10, 17, 0⟩,
  ⟨b! "PE,*", [0xec], false, 0, 3, 10, 17, 0⟩,
  ⟨b! "P,*", [0xf4], false, 0, 3, 10, 17, 0⟩,
  ⟨b! "M,*", [0xfc], false, 0, 3, 10, 17, 0⟩,
  ⟨b! "*", [0xcd], false, 0, 3, 17, 17, 0⟩]

/-- opcodes.cpp:582-591 -/
def z80_ret : List Instr := [
  ⟨b! "", [0xc9], false, 0, 1, 10, 10, 0⟩,
  ⟨b! "NZ", [0xc0], false, 0, 1, 5, 11, 0⟩,
  ⟨b! "Z", [0xc8], false, 0, 1, 5, 11, 0⟩,
  ⟨b! "NC", [0xd0], false, 0, 1, 5, 11, 0⟩,
  ⟨b! "C", [0xd8], false, 0, 1, 5, 11, 0⟩,
  ⟨b! "PO", [0xe0], false, 0, 1, 5, 11, 0⟩,
  ⟨b! "PE", [0xe8], false, 0, 1, 5, 11, 0⟩,
  ⟨b! "P", [0xf0], false, 0, 1, 5, 11, 0⟩,
  ⟨b! "M", [0xf8], false, 0, 1, 5, 11, 0⟩]

/-- opcodes.cpp:82-87 -/
def z80_jr : List Instr := [
  ⟨b! "NZ,%", [0x20], false, 0, 2, 7, 12, 0⟩,
  ⟨b! "Z,%", [0x28], false, 0, 2, 7, 12, 0⟩,
  ⟨b! "NC,%", [0x30], false, 0, 2, 7, 12, 0⟩,
  ⟨b! "C,%", [0x38], false, 0, 2, 7, 12, 0⟩,
  ⟨b! "%", [0x18], false, 0, 2, 12, 12, 0⟩]

/-- opcodes.cpp:68-80 -/
def z80_jp : List Instr := [
  ⟨b! "(IX)", [0xdd, 0xe9], false, 0, 2, 8, 8, 0⟩,
  ⟨b! "(IY)", [0xfd, 0xe9], false, 0, 2, 8, 8, 0⟩,
  ⟨b! "NZ,*", [0xc2], false, 0, 3, 10, 10, 0⟩,
  ⟨b! "Z,*", [0xca], false, 0, 3, 10, 10, 0⟩,
  ⟨b! "NC,*", [0xd2], false, 0, 3, 10, 10, 0⟩,
  ⟨b! "C,*", [0xda], false, 0, 3, 10, 10, 0⟩,
  ⟨b! "PO,*", [0xe2], false, 0, 3, 10, 10, 0⟩,
  ⟨b! "(HL)", [0xe9], false, 0, 1, 4, 4, 0⟩,
  ⟨b! "PE,*", [0xea], false, 0, 3, 10, 10, 0⟩,
  ⟨b! "P,*", [0xf2], false, 0, 3, 10, 10, 0⟩,
  ⟨b! "M,*", [0xfa], false, 0, 3, 10, 10, 0⟩,
  ⟨b! "*", [0xc3], false, 0, 3, 10, 10, 0⟩]

/-- opcodes.cpp:384-411 -/
def z80_add : List Instr := [
  ⟨b! "IX,BC", [0xdd, 0x9], false, 0, 2, 15, 15, 0⟩,
  ⟨b! "IY,BC", [0xfd, 0x9], false, 0, 2, 15, 15, 0⟩,
  ⟨b! "IX,DE", [0xdd, 0x19], false, 0, 2, 15, 15, 0⟩,
  ⟨b! "IY,DE", [0xfd, 0x19], false, 0, 2, 15, 15, 0⟩,
  ⟨b! "IX,IX", [0xdd, 0x29], false, 0, 2, 15, 15, 0⟩,
  ⟨b! "IY,IY", [0xfd, 0x29], false, 0, 2, 15, 15, 0⟩,
  ⟨b! "IX,SP", [0xdd, 0x39], false, 0, 2, 15, 15, 0⟩,
  ⟨b! "IY,SP", [0xfd, 0x39], false, 0, 2, 15, 15, 0⟩,
  ⟨b! "A,IXH", [0xdd, 0x84], false, 0, 2, 8, 8, 0⟩,
  ⟨b! "A,IYH", [0xfd, 0x84], false, 0, 2, 8, 8, 0⟩,
  ⟨b! "A,IXL", [0xdd, 0x85], false, 0, 2, 8, 8, 0⟩,
  ⟨b! "A,IYL", [0xfd, 0x85], false, 0, 2, 8, 8, 0⟩,
  ⟨b! "A,(IX@)", [0xdd, 0x86], false, 0, 3, 19, 19, 0⟩,
  ⟨b! "A,(IY@)", [0xfd, 0x86], false, 0, 3, 19, 19, 0⟩,
  ⟨b! "A,B", [0x80], false, 0, 1, 4, 4, 0⟩,
  ⟨b! "A,C", [0x81], false, 0, 1, 4, 4, 0⟩,
  ⟨b! "A,D", [0x82], false, 0, 1, 4, 4, 0⟩,
  ⟨b! "A,E", [0x83], false, 0, 1, 4, 4, 0⟩,
  ⟨b! "A,H", [0x84], false, 0, 1, 4, 4, 0⟩,
  ⟨b! "A,L", [0x85], false, 0, 1, 4, 4, 0⟩,
  ⟨b! "A,(HL)", [0x86], false, 0, 1, 7, 7, 0⟩,
  ⟨b! "A,A", [0x87], false, 0, 1, 4, 4, 0⟩,
  ⟨b! "HL,BC", [0x9], false, 0, 1, 11, 11, 0⟩,
  ⟨b! "HL,DE", [0x19], false, 0, 1, 11, 11, 0⟩,
  ⟨b! "HL,HL", [0x29], false, 0, 1, 11, 11, 0⟩,
  ⟨b! "HL,SP", [0x39], false, 0, 1, 11, 11, 0⟩,
  ⟨b! "A,&", [0xc6], false, 0, 2, 7, 7, 0⟩]

/-- opcodes.cpp:497-517 -/
def z80_inc : List Instr := [
  ⟨b! "IX", [0xdd, 0x23], false, 0, 2, 10, 10, 0⟩,
  ⟨b! "IY", [0xfd, 0x23], false, 0, 2, 10, 10, 0⟩,
  ⟨b! "IXH", [0xdd, 0x24], false, 0, 2, 8, 8, 0⟩,
  ⟨b! "IYH", [0xfd, 0x24], false, 0, 2, 8, 8, 0⟩,
  ⟨b! "IXL", [0xdd, 0x2c], false, 0, 2, 8, 8, 0⟩,
  ⟨b! "IYL", [0xfd, 0x2c], false, 0, 2, 8, 8, 0⟩,
  ⟨b! "(IX@)", [0xdd, 0x34], false, 0, 3, 23, 23, 0⟩,
  ⟨b! "(IY@)", [0xfd, 0x34], false, 0, 3, 23, 23, 0⟩,
  ⟨b! "BC", [0x3], false, 0, 1, 6, 6, 0⟩,
  ⟨b! "B", [0x4], false, 0, 1, 4, 4, 0⟩,
  ⟨b! "C", [0xc], false, 0, 1, 4, 4, 0⟩,
  ⟨b! "DE", [0x13], false, 0, 1, 6, 6, 0⟩,
  ⟨b! "D", [0x14], false, 0, 1, 4, 4, 0⟩,
  ⟨b! "E", [0x1c], false, 0, 1, 4, 4, 0⟩,
  ⟨b! "HL", [0x23], false, 0, 1, 6, 6, 0⟩,
  ⟨b! "H", [0x24], false, 0, 1, 4, 4, 0⟩,
  ⟨b! "L", [0x2c], false, 0, 1, 4, 4, 0⟩,
  ⟨b! "SP", [0x33], false, 0, 1, 6, 6, 0⟩,
  ⟨b! "(HL)", [0x34], false, 0, 1, 11, 11, 0⟩,
  ⟨b! "A", [0x3c], false, 0, 1, 4, 4, 0⟩]

/-- opcodes.cpp:548-554 -/
def z80_pop : List Instr := [
  ⟨b! "IX", [0xdd, 0xe1], false, 0, 2, 14, 14, 0⟩,
  ⟨b! "IY", [0xfd, 0xe1], false, 0, 2, 14, 14, 0⟩,
  ⟨b! "BC", [0xc1], false, 0, 1, 10, 10, 0⟩,
  ⟨b! "DE", [0xd1], false, 0, 1, 10, 10, 0⟩,
  ⟨b! "HL", [0xe1], false, 0, 1, 10, 10, 0⟩,
  ⟨b! "AF", [0xf1], false, 0, 1, 10, 10, 0⟩]

/-- opcodes.cpp:959-965 -/
def z80_push : List Instr := [
  ⟨b! "IX", [0xdd, 0xe5], false, 0, 2, 15, 15, 0⟩,
  ⟨b! "IY", [0xfd, 0xe5], false, 0, 2, 15, 15, 0⟩,
  ⟨b! "BC", [0xc5], false, 0, 1, 11, 11, 0⟩,
  ⟨b! "DE", [0xd5], false, 0, 1, 11, 11, 0⟩,
  ⟨b! "HL", [0xe5], false, 0, 1, 11, 11, 0⟩,
  ⟨b! "AF", [0xf5], false, 0, 1, 11, 11, 0⟩]

/-- opcodes.cpp:472-492 -/
def z80_dec : List Instr := [
  ⟨b! "IXH", [0xdd, 0x25], false, 0, 2, 8, 8, 0⟩,
  ⟨b! "IYH", [0xfd, 0x25], false, 0, 2, 8, 8, 0⟩,
  ⟨b! "IX", [0xdd, 0x2b], false, 0, 2, 10, 10, 0⟩,
  ⟨b! "IY", [0xfd, 0x2b], false, 0, 2, 10, 10, 0⟩,
  ⟨b! "IXL", [0xdd, 0x2d], false, 0, 2, 8, 8, 0⟩,
  ⟨b! "IYL", [0xfd, 0x2d], false, 0, 2, 8, 8, 0⟩,
  ⟨b! "(IX@)", [0xdd, 0x35], false, 0, 3, 23, 23, 0⟩,
  ⟨b! "(IY@)", [0xfd, 0x35], false, 0, 3, 23, 23, 0⟩,
  ⟨b! "B", [0x5], false, 0, 1, 4, 4, 0⟩,
  ⟨b! "BC", [0xb], false, 0, 1, 6, 6, 0⟩,
  ⟨b! "C", [0xd], false, 0, 1, 4, 4, 0⟩,
  ⟨b! "D", [0x15], false, 0, 1, 4, 4, 0⟩,
  ⟨b! "DE", [0x1b], false, 0, 1, 6, 6, 0⟩,
  ⟨b! "E", [0x1d], false, 0, 1, 4, 4, 0⟩,
  ⟨b! "H", [0x25], false, 0, 1, 4, 4, 0⟩,
  ⟨b! "HL", [0x2b], false, 0, 1, 6, 6, 0⟩,
  ⟨b! "L", [0x2d], false, 0, 1, 4, 4, 0⟩,
  ⟨b! "(HL)", [0x35], false, 0, 1, 11, 11, 0⟩,
  ⟨b! "SP", [0x3b], false, 0, 1, 6, 6, 0⟩,
  ⟨b! "A", [0x3d], false, 0, 1, 4, 4, 0⟩]

/-- opcodes.cpp:7-37 -/
def z80_cp : List Instr := [
  ⟨b! "A,IXH", [0xdd, 0xbc], false, 0, 2, 8, 8, 0⟩,
  ⟨b! "A,IYH", [0xfd, 0xbc], false, 0, 2, 8, 8, 0⟩,
  ⟨b! "A,IXL", [0xdd, 0xbd], false, 0, 2, 8, 8, 0⟩,
  ⟨b! "A,IYL", [0xfd, 0xbd], false, 0, 2, 8, 8, 0⟩,
  ⟨b! "A,(IX@)", [0xdd, 0xbe], false, 0, 3, 19, 19, 0⟩,
  ⟨b! "A,(IY@)", [0xfd, 0xbe], false, 0, 3, 19, 19, 0⟩,
  ⟨b! "A,B", [0xb8], false, 0, 1, 4, 4, 0⟩,
  ⟨b! "A,C", [0xb9], false, 0, 1, 4, 4, 0⟩,
  ⟨b! "A,D", [0xba], false, 0, 1, 4, 4, 0⟩,
  ⟨b! "A,E", [0xbb], false, 0, 1, 4, 4, 0⟩,
  ⟨b! "A,H", [0xbc], false, 0, 1, 4, 4, 0⟩,
  ⟨b! "A,L", [0xbd], false, 0, 1, 4, 4, 0⟩,
  ⟨b! "A,(HL)", [0xbe], false, 0, 1, 7, 7, 0⟩,
  ⟨b! "A,A", [0xbf], false, 0, 1, 4, 4, 0⟩,
  ⟨b! "A,&", [0xfe], false, 0, 2, 7, 7, 0⟩,
  ⟨b! "IXH", [0xdd, 0xbc], false, 0, 2, 8, 8, 0⟩,
  ⟨b! "IYH", [0xfd, 0xbc], false, 0, 2, 8, 8, 0⟩,
  ⟨b! "IXL", [0xdd, 0xbd], false, 0, 2, 8, 8, 0⟩,
  ⟨b! "IYL", [0xfd, 0xbd], false, 0, 2, 8, 8, 0⟩,
  ⟨b! "(IX@)", [0xdd, 0xbe], false, 0, 3, 19, 19, 0⟩,
  ⟨b! "(IY@)", [0xfd, 0xbe], false, 0, 3, 19, 19, 0⟩,
  ⟨b! "B", [0xb8], false, 0, 1, 4, 4, 0⟩,
  ⟨b! "C", [0xb9], false, 0, 1, 4, 4, 0⟩,
  ⟨b! "D", [0xba], false, 0, 1, 4, 4, 0⟩,
  ⟨b! "E", [0xbb], false, 0, 1, 4, 4, 0⟩,
  ⟨b! "H", [0xbc], false, 0, 1, 4, 4, 0⟩,
  ⟨b! "L", [0xbd], false, 0, 1, 4, 4, 0⟩,
  ⟨b! "(HL)", [0xbe], false, 0, 1, 7, 7, 0⟩,
  ⟨b! "A", [0xbf], false, 0, 1, 4, 4, 0⟩,
  ⟨b! "&", [0xfe], false, 0, 2, 7, 7, 0⟩]

/-- opcodes.cpp:279-309 -/
def z80_or : List Instr := [
  ⟨b! "A,IXH", [0xdd, 0xb4], false, 0, 2, 8, 8, 0⟩,
  ⟨b! "A,IYH", [0xfd, 0xb4], false, 0, 2, 8, 8, 0⟩,
  ⟨b! "A,IXL", [0xdd, 0xb5], false, 0, 2, 8, 8, 0⟩,
  ⟨b! "A,IYL", [0xfd, 0xb5], false, 0, 2, 8, 8, 0⟩,
  ⟨b! "A,(IX@)", [0xdd, 0xb6], false, 0, 3, 19, 19, 0⟩,
  ⟨b! "A,(IY@)", [0xfd, 0xb6], false, 0, 3, 19, 19, 0⟩,
  ⟨b! "A,B", [0xb0], false, 0, 1, 4, 4, 0⟩,
  ⟨b! "A,C", [0xb1], false, 0, 1, 4, 4, 0⟩,
  ⟨b! "A,D", [0xb2], false, 0, 1, 4, 4, 0⟩,
  ⟨b! "A,E", [0xb3], false, 0, 1, 4, 4, 0⟩,
  ⟨b! "A,H", [0xb4], false, 0, 1, 4, 4, 0⟩,
  ⟨b! "A,L", [0xb5], false, 0, 1, 4, 4, 0⟩,
  ⟨b! "A,(HL)", [0xb6], false, 0, 1, 7, 7, 0⟩,
  ⟨b! "A,A", [0xb7], false, 0, 1, 4, 4, 0⟩,
  ⟨b! "A,&", [0xf6], false, 0, 2, 7, 7, 0⟩,
  ⟨b! "IXH", [0xdd, 0xb4], false, 0, 2, 8, 8, 0⟩,
  ⟨b! "IYH", [0xfd, 0xb4], false, 0, 2, 8, 8, 0⟩,
  ⟨b! "IXL", [0xdd, 0xb5], false, 0, 2, 8, 8, 0⟩,
  ⟨b! "IYL", [0xfd, 0xb5], false, 0, 2, 8, 8, 0⟩,
  ⟨b! "(IX@)", [0xdd, 0xb6], false, 0, 3, 19, 19, 0⟩,
  ⟨b! "(IY@)", [0xfd, 0xb6], false, 0, 3, 19, 19, 0⟩,
  ⟨b! "B", [0xb0], false, 0, 1, 4, 4, 0⟩,
  ⟨b! "C", [0xb1], false, 0, 1, 4, 4, 0⟩,
  ⟨b! "D", [0xb2], false, 0, 1, 4, 4, 0⟩,
  ⟨b! "E", [0xb3], false, 0, 1, 4, 4, 0⟩,
  ⟨b! "H", [0xb4], false, 0, 1, 4, 4, 0⟩,
  ⟨b! "L", [0xb5], false, 0, 1, 4, 4, 0⟩,
  ⟨b! "(HL)", [0xb6], false, 0, 1, 7, 7, 0⟩,
  ⟨b! "A", [0xb7], false, 0, 1, 4, 4, 0⟩,
  ⟨b! "&", [0xf6], false, 0, 2, 7, 7, 0⟩]

/-- opcodes.cpp:45-50 -/
def z80_ex : List Instr := [
  ⟨b! "(SP),IX", [0xdd, 0xe3], false, 0, 2, 23, 23, 0⟩,
  ⟨b! "(SP),IY", [0xfd, 0xe3], false, 0, 2, 23, 23, 0⟩,
  ⟨b! "AF,AF'", [0x8], false, 0, 1, 4, 4, 0⟩,
  ⟨b! "(SP),HL", [0xe3], false, 0, 1, 19, 19, 0⟩,
  ⟨b! "DE,HL", [0xeb], false, 0, 1, 4, 4, 0⟩]

/-- opcodes.cpp:880-910 -/
def z80_xor : List Instr := [
  ⟨b! "A,IXH", [0xdd, 0xac], false, 0, 2, 0, 0, 0⟩,
  ⟨b! "A,IYH", [0xfd, 0xac], false, 0, 2, 0, 0, 0⟩,
  ⟨b! "A,IXL", [0xdd, 0xad], false, 0, 2, 0, 0, 0⟩,
  ⟨b! "A,IYL", [0xfd, 0xad], false, 0, 2, 0, 0, 0⟩,
  ⟨b! "A,(IX@)", [0xdd, 0xae], false, 0, 3, 19, 19, 0⟩,
  ⟨b! "A,(IY@)", [0xfd, 0xae], false, 0, 3, 19, 19, 0⟩,
  ⟨b! "A,A", [0xaf], false, 0, 1, 4, 4, 0⟩,
  ⟨b! "A,B", [0xa8], false, 0, 1, 4, 4, 0⟩,
  ⟨b! "A,C", [0xa9], false, 0, 1, 4, 4, 0⟩,
  ⟨b! "A,D", [0xaa], false, 0, 1, 4, 4, 0⟩,
  ⟨b! "A,E", [0xab], false, 0, 1, 4, 4, 0⟩,
  ⟨b! "A,H", [0xac], false, 0, 1, 4, 4, 0⟩,
  ⟨b! "A,L", [0xad], false, 0, 1, 4, 4, 0⟩,
  ⟨b! "A,(HL)", [0xae], false, 0, 1, 7, 7, 0⟩,
  ⟨b! "A,&", [0xee], false, 0, 2, 7, 7, 0⟩,
  ⟨b! "IXH", [0xdd, 0xac], false, 0, 2, 0, 0, 0⟩,
  ⟨b! "IYH", [0xfd, 0xac], false, 0, 2, 0, 0, 0⟩,
  ⟨b! "IXL", [0xdd, 0xad], false, 0, 2, 0, 0, 0⟩,
  ⟨b! "IYL", [0xfd, 0xad], false, 0, 2, 0, 0, 0⟩,
  ⟨b! "(IX@)", [0xdd, 0xae], false, 0, 3, 19, 19, 0⟩,
  ⟨b! "(IY@)", [0xfd, 0xae], false, 0, 3, 19, 19, 0⟩,
  ⟨b! "A", [0xaf], false, 0, 1, 4, 4, 0⟩,
  ⟨b! "B", [0xa8], false, 0, 1, 4, 4, 0⟩,
  ⟨b! "C", [0xa9], false, 0, 1, 4, 4, 0⟩,
  ⟨b! "D", [0xaa], false, 0, 1, 4, 4, 0⟩,
  ⟨b! "E", [0xab], false, 0, 1, 4, 4, 0⟩,
  ⟨b! "H", [0xac], false, 0, 1, 4, 4, 0⟩,
  ⟨b! "L", [0xad], false, 0, 1, 4, 4, 0⟩,
  ⟨b! "(HL)", [0xae], false, 0, 1, 7, 7, 0⟩,
  ⟨b! "&", [0xee], false, 0, 2, 7, 7, 0⟩]

/-- opcodes.cpp:494-495 -/
def z80_exx : List Instr := [
  ⟨b! "", [0xd9], false, 0, 1, 4, 4, 0⟩]

/-- opcodes.cpp:848-878 -/
def z80_sub : List Instr := [
  ⟨b! "A,IXH", [0xdd, 0x94], false, 0, 2, 0, 0, 0⟩,
  ⟨b! "A,IYH", [0xfd, 0x94], false, 0, 2, 0, 0, 0⟩,
  ⟨b! "A,IXL", [0xdd, 0x95], false, 0, 2, 0, 0, 0⟩,
  ⟨b! "A,IYL", [0xfd, 0x95], false, 0, 2, 0, 0, 0⟩,
  ⟨b! "A,(IX@)", [0xdd, 0x96], false, 0, 3, 19, 19, 0⟩,
  ⟨b! "A,(IY@)", [0xfd, 0x96], false, 0, 3, 19, 19, 0⟩,
  ⟨b! "A,B", [0x90], false, 0, 1, 4, 4, 0⟩,
  ⟨b! "A,C", [0x91], false, 0, 1, 4, 4, 0⟩,
  ⟨b! "A,D", [0x92], false, 0, 1, 4, 4, 0⟩,
  ⟨b! "A,E", [0x93], false, 0, 1, 4, 4, 0⟩,
  ⟨b! "A,H", [0x94], false, 0, 1, 4, 4, 0⟩,
  ⟨b! "A,L", [0x95], false, 0, 1, 4, 4, 0⟩,
  ⟨b! "A,(HL)", [0x96], false, 0, 1, 7, 7, 0⟩,
  ⟨b! "A,A", [0x97], false, 0, 1, 4, 4, 0⟩,
  ⟨b! "A,&", [0xd6], false, 0, 2, 7, 7, 0⟩,
  ⟨b! "IXH", [0xdd, 0x94], false, 0, 2, 0, 0, 0⟩,
  ⟨b! "IYH", [0xfd, 0x94], false, 0, 2, 0, 0, 0⟩,
  ⟨b! "IXL", [0xdd, 0x95], false, 0, 2, 0, 0, 0⟩,
  ⟨b! "IYL", [0xfd, 0x95], false, 0, 2, 0, 0, 0⟩,
  ⟨b! "(IX@)", [0xdd, 0x96], false, 0, 3, 19, 19, 0⟩,
  ⟨b! "(IY@)", [0xfd, 0x96], false, 0, 3, 19, 19, 0⟩,
  ⟨b! "B", [0x90], false, 0, 1, 4, 4, 0⟩,
  ⟨b! "C", [0x91], false, 0, 1, 4, 4, 0⟩,
  ⟨b! "D", [0x92], false, 0, 1, 4, 4, 0⟩,
  ⟨b! "E", [0x93], false, 0, 1, 4, 4, 0⟩,
  ⟨b! "H", [0x94], false, 0, 1, 4, 4, 0⟩,
  ⟨b! "L", [0x95], false, 0, 1, 4, 4, 0⟩,
  ⟨b! "(HL)", [0x96], false, 0, 1, 7, 7, 0⟩,
  ⟨b! "A", [0x97], false, 0, 1, 4, 4, 0⟩,
  ⟨b! "&", [0xd6], false, 0, 2, 7, 7, 0⟩]

/-- opcodes.cpp:413-443 -/
def z80_and : List Instr := [
  ⟨b! "A,IXH", [0xdd, 0xa4], false, 0, 2, 8, 8, 0⟩,
  ⟨b! "A,IYH", [0xfd, 0xa4], false, 0, 2, 8, 8, 0⟩,
  ⟨b! "A,IXL", [0xdd, 0xa5], false, 0, 2, 8, 8, 0⟩,
  ⟨b! "A,IYL", [0xfd, 0xa5], false, 0, 2, 8, 8, 0⟩,
  ⟨b! "A,(IX@)", [0xdd, 0xa6], false, 0, 3, 19, 19, 0⟩,
  ⟨b! "A,(IY@)", [0xfd, 0xa6], false, 0, 3, 19, 19, 0⟩,
  ⟨b! "A,B", [0xa0], false, 0, 1, 4, 4, 0⟩,
  ⟨b! "A,C", [0xa1], false, 0, 1, 4, 4, 0⟩,
  ⟨b! "A,D", [0xa2], false, 0, 1, 4, 4, 0⟩,
  ⟨b! "A,E", [0xa3], false, 0, 1, 4, 4, 0⟩,
  ⟨b! "A,H", [0xa4], false, 0, 1, 4, 4, 0⟩,
  ⟨b! "A,L", [0xa5], false, 0, 1, 4, 4, 0⟩,
  ⟨b! "A,(HL)", [0xa6], false, 0, 1, 7, 7, 0⟩,
  ⟨b! "A,A", [0xa7], false, 0, 1, 4, 4, 0⟩,
  ⟨b! "A,&", [0xe6], false, 0, 2, 7, 7, 0⟩,
  ⟨b! "IXH", [0xdd, 0xa4], false, 0, 2, 8, 8, 0⟩,
  ⟨b! "IYH", [0xfd, 0xa4], false, 0, 2, 8, 8, 0⟩,
  ⟨b! "IXL", [0xdd, 0xa5], false, 0, 2, 8, 8, 0⟩,
  ⟨b! "IYL", [0xfd, 0xa5], false, 0, 2, 8, 8, 0⟩,
  ⟨b! "(IX@)", [0xdd, 0xa6], false, 0, 3, 19, 19, 0⟩,
  ⟨b! "(IY@)", [0xfd, 0xa6], false, 0, 3, 19, 19, 0⟩,
  ⟨b! "B", [0xa0], false, 0, 1, 4, 4, 0⟩,
  ⟨b! "C", [0xa1], false, 0, 1, 4, 4, 0⟩,
  ⟨b! "D", [0xa2], false, 0, 1, 4, 4, 0⟩,
  ⟨b! "E", [0xa3], false, 0, 1, 4, 4, 0⟩,
  ⟨b! "H", [0xa4], false, 0, 1, 4, 4, 0⟩,
  ⟨b! "L", [0xa5], false, 0, 1, 4, 4, 0⟩,
  ⟨b! "(HL)", [0xa6], false, 0, 1, 7, 7, 0⟩,
  ⟨b! "A", [0xa7], false, 0, 1, 4, 4, 0⟩,
  ⟨b! "&", [0xe6], false, 0, 2, 7, 7, 0⟩]

/-- opcodes.cpp:692-716 -/
def z80_set : List Instr := [
  ⟨b! "B,^,(IX@)", [0xdd, 0xcb], true, 192, 4, 0, 0, 0⟩,
  ⟨b! "B,^,(IY@)", [0xfd, 0xcb], true, 192, 4, 0, 0, 0⟩,
  ⟨b! "C,^,(IX@)", [0xdd, 0xcb], true, 193, 4, 0, 0, 0⟩,
  ⟨b! "C,^,(IY@)", [0xfd, 0xcb], true, 193, 4, 0, 0, 0⟩,
  ⟨b! "D,^,(IX@)", [0xdd, 0xcb], true, 194, 4, 0, 0, 0⟩,
  ⟨b! "D,^,(IY@)", [0xfd, 0xcb], true, 194, 4, 0, 0, 0⟩,
  ⟨b! "E,^,(IX@)", [0xdd, 0xcb], true, 195, 4, 0, 0, 0⟩,
  ⟨b! "E,^,(IY@)", [0xfd, 0xcb], true, 195, 4, 0, 0, 0⟩,
  ⟨b! "H,^,(IX@)", [0xdd, 0xcb], true, 196, 4, 0, 0, 0⟩,
  ⟨b! "H,^,(IY@)", [0xfd, 0xcb], true, 196, 4, 0, 0, 0⟩,
  ⟨b! "L,^,(IX@)", [0xdd, 0xcb], true, 197, 4, 0, 0, 0⟩,
  ⟨b! "L,^,(IY@)", [0xfd, 0xcb], true, 197, 4, 0, 0, 0⟩,
  ⟨b! "^,(IX@)", [0xdd, 0xcb], true, 198, 4, 23, 23, 0⟩,
  ⟨b! "^,(IY@)", [0xfd, 0xcb], true, 198, 4, 23, 23, 0⟩,
  ⟨b! "A,^,(IX@)", [0xdd, 0xcb], true, 199, 4, 0, 0, 0⟩,
  ⟨b! "A,^,(IY@)", [0xfd, 0xcb], true, 199, 4, 0, 0, 0⟩,
  ⟨b! "^,B", [0xcb], true, 192, 2, 8, 8, 0⟩,
  ⟨b! "^,C", [0xcb], true, 193, 2, 8, 8, 0⟩,
  ⟨b! "^,D", [0xcb], true, 194, 2, 8, 8, 0⟩,
  ⟨b! "^,E", [0xcb], true, 195, 2, 8, 8, 0⟩,
  ⟨b! "^,H", [0xcb], true, 196, 2, 8, 8, 0⟩,
  ⟨b! "^,L", [0xcb], true, 197, 2, 8, 8, 0⟩,
  ⟨b! "^,(HL)", [0xcb], true, 198, 2, 15, 15, 0⟩,
  ⟨b! "^,A", [0xcb], true, 199, 2, 8, 8, 0⟩]

/-- opcodes.cpp:445-455 -/
def z80_bit : List Instr := [
  ⟨b! "^,(IX@)", [0xdd, 0xcb], true, 70, 4, 23, 23, 0⟩,
  ⟨b! "^,(IY@)", [0xfd, 0xcb], true, 70, 4, 23, 23, 0⟩,
  ⟨b! "^,B", [0xcb], true, 64, 2, 8, 8, 0⟩,
  ⟨b! "^,C", [0xcb], true, 65, 2, 8, 8, 0⟩,
  ⟨b! "^,D", [0xcb], true, 66, 2, 8, 8, 0⟩,
  ⟨b! "^,E", [0xcb], true, 67, 2, 8, 8, 0⟩,
  ⟨b! "^,H", [0xcb], true, 68, 2, 8, 8, 0⟩,
  ⟨b! "^,L", [0xcb], true, 69, 2, 8, 8, 0⟩,
  ⟨b! "^,(HL)", [0xcb], true, 70, 2, 12, 12, 0⟩,
  ⟨b! "^,A", [0xcb], true, 71, 2, 8, 8, 0⟩]

/-- opcodes.cpp:929-930 -/
def z80_djnz : List Instr := [
  ⟨b! "%", [0x10], false, 0, 2, 8, 13, 0⟩]

/-- opcodes.cpp:625-626 -/
def z80_rra : List Instr := [
  ⟨b! "", [0x1f], false, 0, 1, 4, 4, 0⟩]

/-- opcodes.cpp:337-361 -/
def z80_rr : List Instr := [
  ⟨b! "B,(IX@)", [0xdd, 0xcb], true, 24, 4, 23, 23, 0⟩,
  ⟨b! "B,(IY@)", [0xfd, 0xcb], true, 24, 4, 23, 23, 0⟩,
  ⟨b! "C,(IX@)", [0xdd, 0xcb], true, 25, 4, 23, 23, 0⟩,
  ⟨b! "C,(IY@)", [0xfd, 0xcb], true, 25, 4, 23, 23, 0⟩,
  ⟨b! "D,(IX@)", [0xdd, 0xcb], true, 26, 4, 23, 23, 0⟩,
  ⟨b! "D,(IY@)", [0xfd, 0xcb], true, 26, 4, 23, 23, 0⟩,
  ⟨b! "E,(IX@)", [0xdd, 0xcb], true, 27, 4, 23, 23, 0⟩,
  ⟨b! "E,(IY@)", [0xfd, 0xcb], true, 27, 4, 23, 23, 0⟩,
  ⟨b! "H,(IX@)", [0xdd, 0xcb], true, 28, 4, 23, 23, 0⟩,
  ⟨b! "H,(IY@)", [0xfd, 0xcb], true, 28, 4, 23, 23, 0⟩,
  ⟨b! "L,(IX@)", [0xdd, 0xcb], true, 29, 4, 23, 23, 0⟩,
  ⟨b! "L,(IY@)", [0xfd, 0xcb], true, 29, 4, 23, 23, 0⟩,
  ⟨b! "(IX@)", [0xdd, 0xcb], true, 30, 4, 23, 23, 0⟩,
  ⟨b! "(IY@)", [0xfd, 0xcb], true, 30, 4, 23, 23, 0⟩,
  ⟨b! "A,(IX@)", [0xdd, 0xcb], true, 31, 4, 23, 23, 0⟩,
  ⟨b! "A,(IY@)", [0xfd, 0xcb], true, 31, 4, 23, 23, 0⟩,
  ⟨b! "B", [0xcb, 0x18], false, 0, 2, 8, 8, 0⟩,
  ⟨b! "C", [0xcb, 0x19], false, 0, 2, 8, 8, 0⟩,
  ⟨b! "D", [0xcb, 0x1a], false, 0, 2, 8, 8, 0⟩,
  ⟨b! "E", [0xcb, 0x1b], false, 0, 2, 8, 8, 0⟩,
  ⟨b! "H", [0xcb, 0x1c], false, 0, 2, 8, 8, 0⟩,
  ⟨b! "L", [0xcb, 0x1d], false, 0, 2, 8, 8, 0⟩,
  ⟨b! "(HL)", [0xcb, 0x1e], false, 0, 2, 15, 15, 0⟩,
  ⟨b! "A", [0xcb, 0x1f], false, 0, 2, 8, 8, 0⟩]

/-- opcodes.cpp:796-820 -/
def z80_sra : List Instr := [
  ⟨b! "B,(IX@)", [0xdd, 0xcb], true, 40, 4, 0, 0, 0⟩,
  ⟨b! "B,(IY@)", [0xfd, 0xcb], true, 40, 4, 0, 0, 0⟩,
  ⟨b! "C,(IX@)", [0xdd, 0xcb], true, 41, 4, 0, 0, 0⟩,
  ⟨b! "C,(IY@)", [0xfd, 0xcb], true, 41, 4, 0, 0, 0⟩,
  ⟨b! "D,(IX@)", [0xdd, 0xcb], true, 42, 4, 0, 0, 0⟩,
  ⟨b! "D,(IY@)", [0xfd, 0xcb], true, 42, 4, 0, 0, 0⟩,
  ⟨b! "E,(IX@)", [0xdd, 0xcb], true, 43, 4, 0, 0, 0⟩,
  ⟨b! "E,(IY@)", [0xfd, 0xcb], true, 43, 4, 0, 0, 0⟩,
  ⟨b! "H,(IX@)", [0xdd, 0xcb], true, 44, 4, 0, 0, 0⟩,
  ⟨b! "H,(IY@)", [0xfd, 0xcb], true, 44, 4, 0, 0, 0⟩,
  ⟨b! "L,(IX@)", [0xdd, 0xcb], true, 45, 4, 0, 0, 0⟩,
  ⟨b! "L,(IY@)", [0xfd, 0xcb], true, 45, 4, 0, 0, 0⟩,
  ⟨b! "(IX@)", [0xdd, 0xcb], true, 46, 4, 23, 23, 0⟩,
  ⟨b! "(IY@)", [0xfd, 0xcb], true, 46, 4, 23, 23, 0⟩,
  ⟨b! "A,(IX@)", [0xdd, 0xcb], true, 47, 4, 0, 0, 0⟩,
  ⟨b! "A,(IY@)", [0xfd, 0xcb], true, 47, 4, 0, 0, 0⟩,
  ⟨b! "B", [0xcb, 0x28], false, 0, 2, 8, 8, 0⟩,
  ⟨b! "C", [0xcb, 0x29], false, 0, 2, 8, 8, 0⟩,
  ⟨b! "D", [0xcb, 0x2a], false, 0, 2, 8, 8, 0⟩,
  ⟨b! "E", [0xcb, 0x2b], false, 0, 2, 8, 8, 0⟩,
  ⟨b! "H", [0xcb, 0x2c], false, 0, 2, 8, 8, 0⟩,
  ⟨b! "L", [0xcb, 0x2d], false, 0, 2, 8, 8, 0⟩,
  ⟨b! "(HL)", [0xcb, 0x2e], false, 0, 2, 15, 15, 0⟩,
  ⟨b! "A", [0xcb, 0x2f], false, 0, 2, 8, 8, 0⟩]

/-- opcodes.cpp:556-580 -/
def z80_res : List Instr := [
  ⟨b! "B,^,(IX@)", [0xdd, 0xcb], true, 128, 4, 23, 23, 0⟩,
  ⟨b! "B,^,(IY@)", [0xfd, 0xcb], true, 128, 4, 23, 23, 0⟩,
  ⟨b! "C,^,(IX@)", [0xdd, 0xcb], true, 129, 4, 23, 23, 0⟩,
  ⟨b! "C,^,(IY@)", [0xfd, 0xcb], true, 129, 4, 23, 23, 0⟩,
  ⟨b! "D,^,(IX@)", [0xdd, 0xcb], true, 130, 4, 23, 23, 0⟩,
  ⟨b! "D,^,(IY@)", [0xfd, 0xcb], true, 130, 4, 23, 23, 0⟩,
  ⟨b! "E,^,(IX@)", [0xdd, 0xcb], true, 131, 4, 23, 23, 0⟩,
  ⟨b! "E,^,(IY@)", [0xfd, 0xcb], true, 131, 4, 23, 23, 0⟩,
  ⟨b! "H,^,(IX@)", [0xdd, 0xcb], true, 132, 4, 23, 23, 0⟩,
  ⟨b! "H,^,(IY@)", [0xfd, 0xcb], true, 132, 4, 23, 23, 0⟩,
  ⟨b! "L,^,(IX@)", [0xdd, 0xcb], true, 133, 4, 23, 23, 0⟩,
  ⟨b! "L,^,(IY@)", [0xfd, 0xcb], true, 133, 4, 23, 23, 0⟩,
  ⟨b! "^,(IX@)", [0xdd, 0xcb], true, 134, 4, 23, 23, 0⟩,
  ⟨b! "^,(IY@)", [0xfd, 0xcb], true, 134, 4, 23, 23, 0⟩,
  ⟨b! "A,^,(IX@)", [0xdd, 0xcb], true, 135, 4, 23, 23, 0⟩,
  ⟨b! "A,^,(IY@)", [0xfd, 0xcb], true, 135, 4, 23, 23, 0⟩,
  ⟨b! "^,B", [0xcb], true, 128, 2, 8, 8, 0⟩,
  ⟨b! "^,C", [0xcb], true, 129, 2, 8, 8, 0⟩,
  ⟨b! "^,D", [0xcb], true, 130, 2, 8, 8, 0⟩,
  ⟨b! "^,E", [0xcb], true, 131, 2, 8, 8, 0⟩,
  ⟨b! "^,H", [0xcb], true, 132, 2, 8, 8, 0⟩,
  ⟨b! "^,L", [0xcb], true, 133, 2, 8, 8, 0⟩,
  ⟨b! "^,(HL)", [0xcb], true, 134, 2, 15, 15, 0⟩,
  ⟨b! "^,A", [0xcb], true, 135, 2, 8, 8, 0⟩]

/-- opcodes.cpp:944-945 -/
def z80_ldir : List Instr := [
  ⟨b! "", [0xed, 0xb0], false, 0, 2, 16, 21, 0⟩]

/-- opcodes.cpp:593-594 -/
def z80_rla : List Instr := [
  ⟨b! "", [0x17], false, 0, 1, 4, 4, 0⟩]

/-- opcodes.cpp:537-546 -/
def z80_out : List Instr := [
  ⟨b! "(C),A", [0xed, 0x79], false, 0, 2, 12, 12, 0⟩,
  ⟨b! "(&),A", [0xd3], false, 0, 2, 11, 11, 0⟩,
  ⟨b! "(C),B", [0xed, 0x41], false, 0, 2, 12, 12, 0⟩,
  ⟨b! "(C),C", [0xed, 0x49], false, 0, 2, 12, 12, 0⟩,
  ⟨b! "(C),D", [0xed, 0x51], false, 0, 2, 12, 12, 0⟩,
  ⟨b! "(C),E", [0xed, 0x59], false, 0, 2, 12, 12, 0⟩,
  ⟨b! "(C),H", [0xed, 0x61], false, 0, 2, 12, 12, 0⟩,
  ⟨b! "(C),L", [0xed, 0x69], false, 0, 2, 12, 12, 0⟩,
  ⟨b! "(C),0", [0xed, 0x71], false, 0, 2, 12, 12, 0⟩]

/-- opcodes.cpp:668-687 -/
def z80_sbc : List Instr := [
  ⟨b! "A,IXH", [0xdd, 0x9c], false, 0, 2, 8, 8, 0⟩,
  ⟨b! "A,IYH", [0xfd, 0x9c], false, 0, 2, 8, 8, 0⟩,
  ⟨b! "A,IXL", [0xdd, 0x9d], false, 0, 2, 8, 8, 0⟩,
  ⟨b! "A,IYL", [0xfd, 0x9d], false, 0, 2, 8, 8, 0⟩,
  ⟨b! "A,(IX@)", [0xdd, 0x9e], false, 0, 3, 19, 19, 0⟩,
  ⟨b! "A,(IY@)", [0xfd, 0x9e], false, 0, 3, 19, 19, 0⟩,
  ⟨b! "A,B", [0x98], false, 0, 1, 4, 4, 0⟩,
  ⟨b! "A,C", [0x99], false, 0, 1, 4, 4, 0⟩,
  ⟨b! "A,D", [0x9a], false, 0, 1, 4, 4, 0⟩,
  ⟨b! "A,E", [0x9b], false, 0, 1, 4, 4, 0⟩,
  ⟨b! "A,H", [0x9c], false, 0, 1, 4, 4, 0⟩,
  ⟨b! "A,L", [0x9d], false, 0, 1, 4, 4, 0⟩,
  ⟨b! "A,(HL)", [0x9e], false, 0, 1, 7, 7, 0⟩,
  ⟨b! "A,A", [0x9f], false, 0, 1, 4, 4, 0⟩,
  ⟨b! "A,&", [0xde], false, 0, 2, 7, 7, 0⟩,
  ⟨b! "HL,BC", [0xed, 0x42], false, 0, 2, 15, 15, 0⟩,
  ⟨b! "HL,DE", [0xed, 0x52], false, 0, 2, 15, 15, 0⟩,
  ⟨b! "HL,HL", [0xed, 0x62], false, 0, 2, 15, 15, 0⟩,
  ⟨b! "HL,SP", [0xed, 0x72], false, 0, 2, 15, 15, 0⟩]

/-- opcodes.cpp:466-467 -/
def z80_cpl : List Instr := [
  ⟨b! "", [0x2f], false, 0, 1, 4, 4, 0⟩]

/-- opcodes.cpp:311-335 -/
def z80_rl : List Instr := [
  ⟨b! "B,(IX@)", [0xdd, 0xcb], true, 16, 4, 23, 23, 0⟩,
  ⟨b! "B,(IY@)", [0xfd, 0xcb], true, 16, 4, 23, 23, 0⟩,
  ⟨b! "C,(IX@)", [0xdd, 0xcb], true, 17, 4, 23, 23, 0⟩,
  ⟨b! "C,(IY@)", [0xfd, 0xcb], true, 17, 4, 23, 23, 0⟩,
  ⟨b! "D,(IX@)", [0xdd, 0xcb], true, 18, 4, 23, 23, 0⟩,
  ⟨b! "D,(IY@)", [0xfd, 0xcb], true, 18, 4, 23, 23, 0⟩,
  ⟨b! "E,(IX@)", [0xdd, 0xcb], true, 19, 4, 23, 23, 0⟩,
  ⟨b! "E,(IY@)", [0xfd, 0xcb], true, 19, 4, 23, 23, 0⟩,
  ⟨b! "H,(IX@)", [0xdd, 0xcb], true, 20, 4, 23, 23, 0⟩,
  ⟨b! "H,(IY@)", [0xfd, 0xcb], true, 20, 4, 23, 23, 0⟩,
  ⟨b! "L,(IX@)", [0xdd, 0xcb], true, 21, 4, 23, 23, 0⟩,
  ⟨b! "L,(IY@)", [0xfd, 0xcb], true, 21, 4, 23, 23, 0⟩,
  ⟨b! "(IX@)", [0xdd, 0xcb], true, 22, 4, 23, 23, 0⟩,
  ⟨b! "(IY@)", [0xfd, 0xcb], true, 22, 4, 23, 23, 0⟩,
  ⟨b! "A,(IX@)", [0xdd, 0xcb], true, 23, 4, 23, 23, 0⟩,
  ⟨b! "A,(IY@)", [0xfd, 0xcb], true, 23, 4, 23, 23, 0⟩,
  ⟨b! "B", [0xcb, 0x10], false, 0, 2, 8, 8, 0⟩,
  ⟨b! "C", [0xcb, 0x11], false, 0, 2, 8, 8, 0⟩,
  ⟨b! "D", [0xcb, 0x12], false, 0, 2, 8, 8, 0⟩,
  ⟨b! "E", [0xcb, 0x13], false, 0, 2, 8, 8, 0⟩,
  ⟨b! "H", [0xcb, 0x14], false, 0, 2, 8, 8, 0⟩,
  ⟨b! "L", [0xcb, 0x15], false, 0, 2, 8, 8, 0⟩,
  ⟨b! "(HL)", [0xcb, 0x16], false, 0, 2, 15, 15, 0⟩,
  ⟨b! "A", [0xcb, 0x17], false, 0, 2, 8, 8, 0⟩]

/-- opcodes.cpp:531-532 -/
def z80_neg : List Instr := [
  ⟨b! "", [0xed, 0x44], false, 0, 2, 8, 8, 0⟩]

/-- opcodes.cpp:596-620 -/
def z80_rlc : List Instr := [
  ⟨b! "B,(IX@)", [0xdd, 0xcb], true, 0, 4, 23, 23, 0⟩,
  ⟨b! "B,(IY@)", [0xfd, 0xcb], true, 0, 4, 23, 23, 0⟩,
  ⟨b! "C,(IX@)", [0xdd, 0xcb], true, 1, 4, 23, 23, 0⟩,
  ⟨b! "C,(IY@)", [0xfd, 0xcb], true, 1, 4, 23, 23, 0⟩,
  ⟨b! "D,(IX@)", [0xdd, 0xcb], true, 2, 4, 23, 23, 0⟩,
  ⟨b! "D,(IY@)", [0xfd, 0xcb], true, 2, 4, 23, 23, 0⟩,
  ⟨b! "E,(IX@)", [0xdd, 0xcb], true, 3, 4, 23, 23, 0⟩,
  ⟨b! "E,(IY@)", [0xfd, 0xcb], true, 3, 4, 23, 23, 0⟩,
  ⟨b! "H,(IX@)", [0xdd, 0xcb], true, 4, 4, 23, 23, 0⟩,
  ⟨b! "H,(IY@)", [0xfd, 0xcb], true, 4, 4, 23, 23, 0⟩,
  ⟨b! "L,(IX@)", [0xdd, 0xcb], true, 5, 4, 23, 23, 0⟩,
  ⟨b! "L,(IY@)", [0xfd, 0xcb], true, 5, 4, 23, 23, 0⟩,
  ⟨b! "(IX@)", [0xdd, 0xcb], true, 6, 4, 23, 23, 0⟩,
  ⟨b! "(IY@)", [0xfd, 0xcb], true, 6, 4, 23, 23, 0⟩,
  ⟨b! "A,(IX@)", [0xdd, 0xcb], true, 7, 4, 23, 23, 0⟩,
  ⟨b! "A,(IY@)", [0xfd, 0xcb], true, 7, 4, 23, 23, 0⟩,
  ⟨b! "B", [0xcb, 0x0], false, 0, 2, 8, 8, 0⟩,
  ⟨b! "C", [0xcb, 0x1], false, 0, 2, 8, 8, 0⟩,
  ⟨b! "D", [0xcb, 0x2], false, 0, 2, 8, 8, 0⟩,
  ⟨b! "E", [0xcb, 0x3], false, 0, 2, 8, 8, 0⟩,
  ⟨b! "H", [0xcb, 0x4], false, 0, 2, 8, 8, 0⟩,
  ⟨b! "L", [0xcb, 0x5], false, 0, 2, 8, 8, 0⟩,
  ⟨b! "(HL)", [0xcb, 0x6], false, 0, 2, 15, 15, 0⟩,
  ⟨b! "A", [0xcb, 0x7], false, 0, 2, 8, 8, 0⟩]

/-- opcodes.cpp:822-846 -/
def z80_srl : List Instr := [
  ⟨b! "B,(IX@)", [0xdd, 0xcb], true, 56, 4, 0, 0, 0⟩,
  ⟨b! "B,(IY@)", [0xfd, 0xcb], true, 56, 4, 0, 0, 0⟩,
  ⟨b! "C,(IX@)", [0xdd, 0xcb], true, 57, 4, 0, 0, 0⟩,
  ⟨b! "C,(IY@)", [0xfd, 0xcb], true, 57, 4, 0, 0, 0⟩,
  ⟨b! "D,(IX@)", [0xdd, 0xcb], true, 58, 4, 0, 0, 0⟩,
  ⟨b! "D,(IY@)", [0xfd, 0xcb], true, 58, 4, 0, 0, 0⟩,
  ⟨b! "E,(IX@)", [0xdd, 0xcb], true, 59, 4, 0, 0, 0⟩,
  ⟨b! "E,(IY@)", [0xfd, 0xcb], true, 59, 4, 0, 0, 0⟩,
  ⟨b! "H,(IX@)", [0xdd, 0xcb], true, 60, 4, 0, 0, 0⟩,
  ⟨b! "H,(IY@)", [0xfd, 0xcb], true, 60, 4, 0, 0, 0⟩,
  ⟨b! "L,(IX@)", [0xdd, 0xcb], true, 61, 4, 0, 0, 0⟩,
  ⟨b! "L,(IY@)", [0xfd, 0xcb], true, 61, 4, 0, 0, 0⟩,
  ⟨b! "(IX@)", [0xdd, 0xcb], true, 62, 4, 23, 23, 0⟩,
  ⟨b! "(IY@)", [0xfd, 0xcb], true, 62, 4, 23, 23, 0⟩,
  ⟨b! "A,(IX@)", [0xdd, 0xcb], true, 63, 4, 0, 0, 0⟩,
  ⟨b! "A,(IY@)", [0xfd, 0xcb], true, 63, 4, 0, 0, 0⟩,
  ⟨b! "B", [0xcb, 0x38], false, 0, 2, 8, 8, 0⟩,
  ⟨b! "C", [0xcb, 0x39], false, 0, 2, 8, 8, 0⟩,
  ⟨b! "D", [0xcb, 0x3a], false, 0, 2, 8, 8, 0⟩,
  ⟨b! "E", [0xcb, 0x3b], false, 0, 2, 8, 8, 0⟩,
  ⟨b! "H", [0xcb, 0x3c], false, 0, 2, 8, 8, 0⟩,
  ⟨b! "L", [0xcb, 0x3d], false, 0, 2, 8, 8, 0⟩,
  ⟨b! "(HL)", [0xcb, 0x3e], false, 0, 2, 15, 15, 0⟩,
  ⟨b! "A", [0xcb, 0x3f], false, 0, 2, 8, 8, 0⟩]

/-- opcodes.cpp:657-666 -/
def z80_rst : List Instr := [
  ⟨b! "00H", [0xc7], false, 0, 1, 11, 11, 0⟩,
  ⟨b! "08H", [0xcf], false, 0, 1, 11, 11, 0⟩,
  ⟨b! "10H", [0xd7], false, 0, 1, 11, 11, 0⟩,
  ⟨b! "18H", [0xdf], false, 0, 1, 11, 11, 0⟩,
  ⟨b! "20H", [0xe7], false, 0, 1, 11, 11, 0⟩,
  ⟨b! "28H", [0xef], false, 0, 1, 11, 11, 0⟩,
  ⟨b! "30H", [0xf7], false, 0, 1, 11, 11, 0⟩,
  ⟨b! "38H", [0xff], false, 0, 1, 11, 11, 0⟩,
  ⟨b! "#", [], false, 0, 1, 11, 11, 0⟩]

/-- opcodes.cpp:57-66 -/
def z80_in : List Instr := [
  ⟨b! "A,(C)", [0xed, 0x78], false, 0, 2, 12, 12, 0⟩,
  ⟨b! "A,(&)", [0xdb], false, 0, 2, 11, 11, 0⟩,
  ⟨b! "B,(C)", [0xed, 0x40], false, 0, 2, 12, 12, 0⟩,
  ⟨b! "C,(C)", [0xed, 0x48], false, 0, 2, 12, 12, 0⟩,
  ⟨b! "D,(C)", [0xed, 0x50], false, 0, 2, 12, 12, 0⟩,
  ⟨b! "E,(C)", [0xed, 0x58], false, 0, 2, 12, 12, 0⟩,
  ⟨b! "H,(C)", [0xed, 0x60], false, 0, 2, 12, 12, 0⟩,
  ⟨b! "L,(C)", [0xed, 0x68], false, 0, 2, 12, 12, 0⟩,
  ⟨b! "F,(C)", [0xed, 0x70], false, 0, 2, 12, 12, 0⟩]

/-- opcodes.cpp:941-942 -/
def z80_lddr : List Instr := [
  ⟨b! "", [0xed, 0xb8], false, 0, 2, 16, 21, 0⟩]

/-- opcodes.cpp:42-43 -/
def z80_ei : List Instr := [
  ⟨b! "", [0xfb], false, 0, 1, 4, 4, 0⟩]

/-- opcodes.cpp:52-55 -/
def z80_im : List Instr := [
  ⟨b! "0", [0xed, 0x46], false, 0, 2, 8, 8, 0⟩,
  ⟨b! "1", [0xed, 0x56], false, 0, 2, 8, 8, 0⟩,
  ⟨b! "2", [0xed, 0x5e], false, 0, 2, 8, 8, 0⟩]

/-- opcodes.cpp:363-382 -/
def z80_adc : List Instr := [
  ⟨b! "A,IXH", [0xdd, 0x8c], false, 0, 2, 8, 8, 0⟩,
  ⟨b! "A,IYH", [0xfd, 0x8c], false, 0, 2, 8, 8, 0⟩,
  ⟨b! "A,IXL", [0xdd, 0x8d], false, 0, 2, 8, 8, 0⟩,
  ⟨b! "A,IYL", [0xfd, 0x8d], false, 0, 2, 8, 8, 0⟩,
  ⟨b! "A,(IX@)", [0xdd, 0x8e], false, 0, 3, 19, 19, 0⟩,
  ⟨b! "A,(IY@)", [0xfd, 0x8e], false, 0, 3, 19, 19, 0⟩,
  ⟨b! "A,B", [0x88], false, 0, 1, 4, 4, 0⟩,
  ⟨b! "A,C", [0x89], false, 0, 1, 4, 4, 0⟩,
  ⟨b! "A,D", [0x8a], false, 0, 1, 4, 4, 0⟩,
  ⟨b! "A,E", [0x8b], false, 0, 1, 4, 4, 0⟩,
  ⟨b! "A,H", [0x8c], false, 0, 1, 4, 4, 0⟩,
  ⟨b! "A,L", [0x8d], false, 0, 1, 7, 7, 0⟩,
  ⟨b! "A,(HL)", [0x8e], false, 0, 1, 7, 7, 0⟩,
  ⟨b! "A,A", [0x8f], false, 0, 1, 4, 4, 0⟩,
  ⟨b! "A,&", [0xce], false, 0, 2, 7, 7, 0⟩,
  ⟨b! "HL,BC", [0xed, 0x4a], false, 0, 2, 15, 15, 0⟩,
  ⟨b! "HL,DE", [0xed, 0x5a], false, 0, 2, 15, 15, 0⟩,
  ⟨b! "HL,HL", [0xed, 0x6a], false, 0, 2, 15, 15, 0⟩,
  ⟨b! "HL,SP", [0xed, 0x7a], false, 0, 2, 15, 15, 0⟩]

/-- opcodes.cpp:469-470 -/
def z80_daa : List Instr := [
  ⟨b! "", [0x27], false, 0, 1, 4, 4, 0⟩]

/-- opcodes.cpp:39-40 -/
def z80_di : List Instr := [
  ⟨b! "", [0xf3], false, 0, 1, 4, 4, 0⟩]

/-- opcodes.cpp:534-535 -/
def z80_nop : List Instr := [
  ⟨b! "", [0x0], false, 0, 1, 4, 4, 0⟩]

/-- opcodes.cpp:973-974 -/
def z80_rlca : List Instr := [
  ⟨b! "", [0x7], false, 0, 1, 4, 4, 0⟩]

/-- opcodes.cpp:744-768 -/
def z80_sla : List Instr := [
  ⟨b! "B,(IX@)", [0xdd, 0xcb], true, 32, 4, 0, 0, 0⟩,
  ⟨b! "B,(IY@)", [0xfd, 0xcb], true, 32, 4, 0, 0, 0⟩,
  ⟨b! "C,(IX@)", [0xdd, 0xcb], true, 33, 4, 0, 0, 0⟩,
  ⟨b! "C,(IY@)", [0xfd, 0xcb], true, 33, 4, 0, 0, 0⟩,
  ⟨b! "D,(IX@)", [0xdd, 0xcb], true, 34, 4, 0, 0, 0⟩,
  ⟨b! "D,(IY@)", [0xfd, 0xcb], true, 34, 4, 0, 0, 0⟩,
  ⟨b! "E,(IX@)", [0xdd, 0xcb], true, 35, 4, 0, 0, 0⟩,
  ⟨b! "E,(IY@)", [0xfd, 0xcb], true, 35, 4, 0, 0, 0⟩,
  ⟨b! "H,(IX@)", [0xdd, 0xcb], true, 36, 4, 0, 0, 0⟩,
  ⟨b! "H,(IY@)", [0xfd, 0xcb], true, 36, 4, 0, 0, 0⟩,
  ⟨b! "L,(IX@)", [0xdd, 0xcb], true, 37, 4, 0, 0, 0⟩,
  ⟨b! "L,(IY@)", [0xfd, 0xcb], true, 37, 4, 0, 0, 0⟩,
  ⟨b! "(IX@)", [0xdd, 0xcb], true, 38, 4, 23, 23, 0⟩,
  ⟨b! "(IY@)", [0xfd, 0xcb], true, 38, 4, 23, 23, 0⟩,
  ⟨b! "A,(IX@)", [0xdd, 0xcb], true, 39, 4, 0, 0, 0⟩,
  ⟨b! "A,(IY@)", [0xfd, 0xcb], true, 39, 4, 0, 0, 0⟩,
  ⟨b! "B", [0xcb, 0x20], false, 0, 2, 8, 8, 0⟩,
  ⟨b! "C", [0xcb, 0x21], false, 0, 2, 8, 8, 0⟩,
  ⟨b! "D", [0xcb, 0x22], false, 0, 2, 8, 8, 0⟩,
  ⟨b! "E", [0xcb, 0x23], false, 0, 2, 8, 8, 0⟩,
  ⟨b! "H", [0xcb, 0x24], false, 0, 2, 8, 8, 0⟩,
  ⟨b! "L", [0xcb, 0x25], false, 0, 2, 8, 8, 0⟩,
  ⟨b! "(HL)", [0xcb, 0x26], false, 0, 2, 15, 15, 0⟩,
  ⟨b! "A", [0xcb, 0x27], false, 0, 2, 8, 8, 0⟩]

/-- opcodes.cpp:528-529 -/
def z80_ldi : List Instr := [
  ⟨b! "", [0xed, 0xa0], false, 0, 2, 16, 16, 0⟩]

/-- opcodes.cpp:457-458 -/
def z80_ccf : List Instr := [
  ⟨b! "", [0x3f], false, 0, 1, 4, 4, 0⟩]

/-- opcodes.cpp:689-690 -/
def z80_scf : List Instr := [
  ⟨b! "", [0x37], false, 0, 1, 4, 4, 0⟩]

/-- opcodes.cpp:628-652 -/
def z80_rrc : List Instr := [
  ⟨b! "B,(IX@)", [0xdd, 0xcb], true, 8, 4, 23, 23, 0⟩,
  ⟨b! "B,(IY@)", [0xfd, 0xcb], true, 8, 4, 23, 23, 0⟩,
  ⟨b! "C,(IX@)", [0xdd, 0xcb], true, 9, 4, 23, 23, 0⟩,
  ⟨b! "C,(IY@)", [0xfd, 0xcb], true, 9, 4, 23, 23, 0⟩,
  ⟨b! "D,(IX@)", [0xdd, 0xcb], true, 10, 4, 23, 23, 0⟩,
  ⟨b! "D,(IY@)", [0xfd, 0xcb], true, 10, 4, 23, 23, 0⟩,
  ⟨b! "E,(IX@)", [0xdd, 0xcb], true, 11, 4, 23, 23, 0⟩,
  ⟨b! "E,(IY@)", [0xfd, 0xcb], true, 11, 4, 23, 23, 0⟩,
  ⟨b! "H,(IX@)", [0xdd, 0xcb], true, 12, 4, 23, 23, 0⟩,
  ⟨b! "H,(IY@)", [0xfd, 0xcb], true, 12, 4, 23, 23, 0⟩,
  ⟨b! "L,(IX@)", [0xdd, 0xcb], true, 13, 4, 23, 23, 0⟩,
  ⟨b! "L,(IY@)", [0xfd, 0xcb], true, 13, 4, 23, 23, 0⟩,
  ⟨b! "(IX@)", [0xdd, 0xcb], true, 14, 4, 23, 23, 0⟩,
  ⟨b! "(IY@)", [0xfd, 0xcb], true, 14, 4, 23, 23, 0⟩,
  ⟨b! "A,(IX@)", [0xdd, 0xcb], true, 15, 4, 23, 23, 0⟩,
  ⟨b! "A,(IY@)", [0xfd, 0xcb], true, 15, 4, 23, 23, 0⟩,
  ⟨b! "B", [0xcb, 0x8], false, 0, 2, 8, 8, 0⟩,
  ⟨b! "C", [0xcb, 0x9], false, 0, 2, 8, 8, 0⟩,
  ⟨b! "D", [0xcb, 0xa], false, 0, 2, 8, 8, 0⟩,
  ⟨b! "E", [0xcb, 0xb], false, 0, 2, 8, 8, 0⟩,
  ⟨b! "H", [0xcb, 0xc], false, 0, 2, 8, 8, 0⟩,
  ⟨b! "L", [0xcb, 0xd], false, 0, 2, 8, 8, 0⟩,
  ⟨b! "(HL)", [0xcb, 0xe], false, 0, 2, 15, 15, 0⟩,
  ⟨b! "A", [0xcb, 0xf], false, 0, 2, 8, 8, 0⟩]

/-- opcodes.cpp:932-933 -/
def z80_halt : List Instr := [
  ⟨b! "", [0x76], false, 0, 1, 4, 4, 0⟩]

/-- opcodes.cpp:622-623 -/
def z80_rld : List Instr := [
  ⟨b! "", [0xed, 0x6f], false, 0, 2, 18, 18, 0⟩]

/-- opcodes.cpp:718-742 -/
def z80_sl1 : List Instr := [
  ⟨b! "B,(IX@)", [0xdd, 0xcb], true, 48, 4, 0, 0, 0⟩,
  ⟨b! "B,(IY@)", [0xfd, 0xcb], true, 48, 4, 0, 0, 0⟩,
  ⟨b! "C,(IX@)", [0xdd, 0xcb], true, 49, 4, 0, 0, 0⟩,
  ⟨b! "C,(IY@)", [0xfd, 0xcb], true, 49, 4, 0, 0, 0⟩,
  ⟨b! "D,(IX@)", [0xdd, 0xcb], true, 50, 4, 0, 0, 0⟩,
  ⟨b! "D,(IY@)", [0xfd, 0xcb], true, 50, 4, 0, 0, 0⟩,
  ⟨b! "E,(IX@)", [0xdd, 0xcb], true, 51, 4, 0, 0, 0⟩,
  ⟨b! "E,(IY@)", [0xfd, 0xcb], true, 51, 4, 0, 0, 0⟩,
  ⟨b! "H,(IX@)", [0xdd, 0xcb], true, 52, 4, 0, 0, 0⟩,
  ⟨b! "H,(IY@)", [0xfd, 0xcb], true, 52, 4, 0, 0, 0⟩,
  ⟨b! "L,(IX@)", [0xdd, 0xcb], true, 53, 4, 0, 0, 0⟩,
  ⟨b! "L,(IY@)", [0xfd, 0xcb], true, 53, 4, 0, 0, 0⟩,
  ⟨b! "(IX@)", [0xdd, 0xcb], true, 54, 4, 0, 0, 0⟩,
  ⟨b! "(IY@)", [0xfd, 0xcb], true, 54, 4, 0, 0, 0⟩,
  ⟨b! "A,(IX@)", [0xdd, 0xcb], true, 55, 4, 0, 0, 0⟩,
  ⟨b! "A,(IY@)", [0xfd, 0xcb], true, 55, 4, 0, 0, 0⟩,
  ⟨b! "B", [0xcb, 0x30], false, 0, 2, 0, 0, 0⟩,
  ⟨b! "C", [0xcb, 0x31], false, 0, 2, 0, 0, 0⟩,
  ⟨b! "D", [0xcb, 0x32], false, 0, 2, 0, 0, 0⟩,
  ⟨b! "E", [0xcb, 0x33], false, 0, 2, 0, 0, 0⟩,
  ⟨b! "H", [0xcb, 0x34], false, 0, 2, 0, 0, 0⟩,
  ⟨b! "L", [0xcb, 0x35], false, 0, 2, 0, 0, 0⟩,
  ⟨b! "(HL)", [0xcb, 0x36], false, 0, 2, 0, 0, 0⟩,
  ⟨b! "A", [0xcb, 0x37], false, 0, 2, 0, 0, 0⟩]

/-- opcodes.cpp:460-461 -/
def z80_cpd : List Instr := [
  ⟨b! "", [0xed, 0xa9], false, 0, 2, 16, 16, 0⟩]

/-- opcodes.cpp:923-924 -/
def z80_cpdr : List Instr := [
  ⟨b! "", [0xed, 0xb9], false, 0, 2, 16, 21, 0⟩]

/-- opcodes.cpp:463-464 -/
def z80_cpi : List Instr := [
  ⟨b! "", [0xed, 0xa1], false, 0, 2, 16, 16, 0⟩]

/-- opcodes.cpp:926-927 -/
def z80_cpir : List Instr := [
  ⟨b! "", [0xed, 0xb1], false, 0, 2, 16, 21, 0⟩]

/-- opcodes.cpp:519-520 -/
def z80_ind : List Instr := [
  ⟨b! "", [0xed, 0xaa], false, 0, 2, 16, 16, 0⟩]

/-- opcodes.cpp:935-936 -/
def z80_indr : List Instr := [
  ⟨b! "", [0xed, 0xba], false, 0, 2, 16, 21, 0⟩]

/-- opcodes.cpp:522-523 -/
def z80_ini : List Instr := [
  ⟨b! "", [0xed, 0xa2], false, 0, 2, 16, 16, 0⟩]

/-- opcodes.cpp:938-939 -/
def z80_inir : List Instr := [
  ⟨b! "", [0xed, 0xb2], false, 0, 2, 16, 21, 0⟩]

/-- opcodes.cpp:525-526 -/
def z80_ldd : List Instr := [
  ⟨b! "", [0xed, 0xa8], false, 0, 2, 16, 16, 0⟩]

/-- opcodes.cpp:947-948 -/
def z80_otdr : List Instr := [
  ⟨b! "", [0xed, 0xbb], false, 0, 2, 16, 21, 0⟩]

/-- opcodes.cpp:950-951 -/
def z80_otir : List Instr := [
  ⟨b! "", [0xed, 0xb3], false, 0, 2, 16, 21, 0⟩]

/-- opcodes.cpp:953-954 -/
def z80_outd : List Instr := [
  ⟨b! "", [0xed, 0xab], false, 0, 2, 16, 16, 0⟩]

/-- opcodes.cpp:956-957 -/
def z80_outi : List Instr := [
  ⟨b! "", [0xed, 0xa3], false, 0, 2, 16, 16, 0⟩]

/-- opcodes.cpp:967-968 -/
def z80_reti : List Instr := [
  ⟨b! "", [0xed, 0x4d], false, 0, 2, 14, 14, 0⟩]

/-- opcodes.cpp:970-971 -/
def z80_retn : List Instr := [
  ⟨b! "", [0xed, 0x45], false, 0, 2, 14, 14, 0⟩]

/-- opcodes.cpp:976-977 -/
def z80_rrca : List Instr := [
  ⟨b! "", [0xf], false, 0, 1, 4, 4, 0⟩]

/-- opcodes.cpp:654-655 -/
def z80_rrd : List Instr := [
  ⟨b! "", [0xed, 0x67], false, 0, 2, 18, 18, 0⟩]

/-- opcodes.cpp:770-794 -/
def z80_sll : List Instr := [
  ⟨b! "B,(IX@)", [0xdd, 0xcb], true, 48, 4, 0, 0, 0⟩,
  ⟨b! "B,(IY@)", [0xfd, 0xcb], true, 48, 4, 0, 0, 0⟩,
  ⟨b! "C,(IX@)", [0xdd, 0xcb], true, 49, 4, 0, 0, 0⟩,
  ⟨b! "C,(IY@)", [0xfd, 0xcb], true, 49, 4, 0, 0, 0⟩,
  ⟨b! "D,(IX@)", [0xdd, 0xcb], true, 50, 4, 0, 0, 0⟩,
  ⟨b! "D,(IY@)", [0xfd, 0xcb], true, 50, 4, 0, 0, 0⟩,
  ⟨b! "E,(IX@)", [0xdd, 0xcb], true, 51, 4, 0, 0, 0⟩,
  ⟨b! "E,(IY@)", [0xfd, 0xcb], true, 51, 4, 0, 0, 0⟩,
  ⟨b! "H,(IX@)", [0xdd, 0xcb], true, 52, 4, 0, 0, 0⟩,
  ⟨b! "H,(IY@)", [0xfd, 0xcb], true, 52, 4, 0, 0, 0⟩,
  ⟨b! "L,(IX@)", [0xdd, 0xcb], true, 53, 4, 0, 0, 0⟩,
  ⟨b! "L,(IY@)", [0xfd, 0xcb], true, 53, 4, 0, 0, 0⟩,
  ⟨b! "(IX@)", [0xdd, 0xcb], true, 54, 4, 0, 0, 0⟩,
  ⟨b! "(IY@)", [0xfd, 0xcb], true, 54, 4, 0, 0, 0⟩,
  ⟨b! "A,(IX@)", [0xdd, 0xcb], true, 55, 4, 0, 0, 0⟩,
  ⟨b! "A,(IY@)", [0xfd, 0xcb], true, 55, 4, 0, 0, 0⟩,
  ⟨b! "B", [0xcb, 0x30], false, 0, 2, 0, 0, 0⟩,
  ⟨b! "C", [0xcb, 0x31], false, 0, 2, 0, 0, 0⟩,
  ⟨b! "D", [0xcb, 0x32], false, 0, 2, 0, 0, 0⟩,
  ⟨b! "E", [0xcb, 0x33], false, 0, 2, 0, 0, 0⟩,
  ⟨b! "H", [0xcb, 0x34], false, 0, 2, 0, 0, 0⟩,
  ⟨b! "L", [0xcb, 0x35], false, 0, 2, 0, 0, 0⟩,
  ⟨b! "(HL)", [0xcb, 0x36], false, 0, 2, 0, 0, 0⟩,
  ⟨b! "A", [0xcb, 0x37], false, 0, 2, 0, 0, 0⟩]

/-- opcode_list, opcodes.cpp:979-1049 -/
def z80Table : List Opcode := [
  ⟨b! "LD", z80_ld⟩,
  ⟨b! "CALL", z80_call⟩,
  ⟨b! "RET", z80_ret⟩,
  ⟨b! "JR", z80_jr⟩,
  ⟨b! "JP", z80_jp⟩,
  ⟨b! "ADD", z80_add⟩,
  ⟨b! "INC", z80_inc⟩,
  ⟨b! "POP", z80_pop⟩,
  ⟨b! "PUSH", z80_push⟩,
  ⟨b! "DEC", z80_dec⟩,
  ⟨b! "CP", z80_cp⟩,
  ⟨b! "OR", z80_or⟩,
  ⟨b! "EX", z80_ex⟩,
  ⟨b! "XOR", z80_xor⟩,
  ⟨b! "EXX", z80_exx⟩,
  ⟨b! "SUB", z80_sub⟩,
  ⟨b! "AND", z80_and⟩,
  ⟨b! "SET", z80_set⟩,
  ⟨b! "BIT", z80_bit⟩,
  ⟨b! "DJNZ", z80_djnz⟩,
  ⟨b! "RRA", z80_rra⟩,
  ⟨b! "RR", z80_rr⟩,
  ⟨b! "SRA", z80_sra⟩,
  ⟨b! "RES", z80_res⟩,
  ⟨b! "LDIR", z80_ldir⟩,
  ⟨b! "RLA", z80_rla⟩,
  ⟨b! "OUT", z80_out⟩,
  ⟨b! "SBC", z80_sbc⟩,
  ⟨b! "CPL", z80_cpl⟩,
  ⟨b! "RL", z80_rl⟩,
  ⟨b! "NEG", z80_neg⟩,
  ⟨b! "RLC", z80_rlc⟩,
  ⟨b! "SRL", z80_srl⟩,
  ⟨b! "RST", z80_rst⟩,
  ⟨b! "IN", z80_in⟩,
  ⟨b! "LDDR", z80_lddr⟩,
  ⟨b! "EI", z80_ei⟩,
  ⟨b! "IM", z80_im⟩,
  ⟨b! "ADC", z80_adc⟩,
  ⟨b! "DAA", z80_daa⟩,
  ⟨b! "DI", z80_di⟩,
  ⟨b! "NOP", z80_nop⟩,
  ⟨b! "RLCA", z80_rlca⟩,
  ⟨b! "SLA", z80_sla⟩,
  ⟨b! "LDI", z80_ldi⟩,
  ⟨b! "CCF", z80_ccf⟩,
  ⟨b! "SCF", z80_scf⟩,
  ⟨b! "RRC", z80_rrc⟩,
  ⟨b! "HALT", z80_halt⟩,
  ⟨b! "RLD", z80_rld⟩,
  ⟨b! "SL1", z80_sl1⟩,
  ⟨b! "CPD", z80_cpd⟩,
  ⟨b! "CPDR", z80_cpdr⟩,
  ⟨b! "CPI", z80_cpi⟩,
  ⟨b! "CPIR", z80_cpir⟩,
  ⟨b! "IND", z80_ind⟩,
  ⟨b! "INDR", z80_indr⟩,
  ⟨b! "INI", z80_ini⟩,
  ⟨b! "INIR", z80_inir⟩,
  ⟨b! "LDD", z80_ldd⟩,
  ⟨b! "OTDR", z80_otdr⟩,
  ⟨b! "OTIR", z80_otir⟩,
  ⟨b! "OUTD", z80_outd⟩,
  ⟨b! "OUTI", z80_outi⟩,
  ⟨b! "RETI", z80_reti⟩,
  ⟨b! "RETN", z80_retn⟩,
  ⟨b! "RRCA", z80_rrca⟩,
  ⟨b! "RRD", z80_rrd⟩,
  ⟨b! "SLL", z80_sll⟩]

end Spasm
