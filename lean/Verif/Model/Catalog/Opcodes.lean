/-!
# Opcode names of src/chain/enums/opcode.cpp (generated by tools/gen_opcodes.py)
-/
namespace Verif.Catalog

/-- The cases of the switch in `opcode_to_mnemonic` that return a literal (src/chain/enums/opcode.cpp:43-406). -/
def opcodeText : List (Nat × String) := [
  (0, "zero"), (76, "pushdata1"), (77, "pushdata2"), (78, "pushdata4"), (79, "-1"), (80, "reserved"),
  (97, "nop"), (98, "ver"), (99, "if"), (100, "notif"), (101, "verif"), (102, "vernotif"),
  (103, "else"), (104, "endif"), (105, "verify"), (106, "return"), (107, "toaltstack"), (108, "fromaltstack"),
  (109, "2drop"), (110, "2dup"), (111, "3dup"), (112, "2over"), (113, "2rot"), (114, "2swap"),
  (115, "ifdup"), (116, "depth"), (117, "drop"), (118, "dup"), (119, "nip"), (120, "over"),
  (121, "pick"), (122, "roll"), (123, "rot"), (124, "swap"), (125, "tuck"), (126, "cat"),
  (127, "substr"), (128, "left"), (129, "right"), (130, "size"), (131, "invert"), (132, "and"),
  (133, "or"), (134, "xor"), (135, "equal"), (136, "equalverify"), (137, "reserved_137"), (138, "reserved_138"),
  (139, "1add"), (140, "1sub"), (141, "2mul"), (142, "2div"), (143, "negate"), (144, "abs"),
  (145, "not"), (146, "nonzero"), (147, "add"), (148, "sub"), (149, "mul"), (150, "div"),
  (151, "mod"), (152, "lshift"), (153, "rshift"), (154, "booland"), (155, "boolor"), (156, "numequal"),
  (157, "numequalverify"), (158, "numnotequal"), (159, "lessthan"), (160, "greaterthan"), (161, "lessthanorequal"), (162, "greaterthanorequal"),
  (163, "min"), (164, "max"), (165, "within"), (166, "ripemd160"), (167, "sha1"), (168, "sha256"),
  (169, "hash160"), (170, "hash256"), (171, "codeseparator"), (172, "checksig"), (173, "checksigverify"), (174, "checkmultisig"),
  (175, "checkmultisigverify"), (176, "nop1"), (179, "nop4"), (180, "nop5"), (181, "nop6"), (182, "nop7"),
  (183, "nop8"), (184, "nop9"), (185, "nop10")]

/-- The texts `opcode_from_mnemonic` compares with, in order, aliases after names (src/chain/enums/opcode.cpp:416-674). -/
def opcodeNames : List (String × Nat) := [
  ("zero", 0), ("push_0", 0), ("push_1", 1), ("push_2", 2), ("push_3", 3), ("push_4", 4),
  ("push_5", 5), ("push_6", 6), ("push_7", 7), ("push_8", 8), ("push_9", 9), ("push_10", 10),
  ("push_11", 11), ("push_12", 12), ("push_13", 13), ("push_14", 14), ("push_15", 15), ("push_16", 16),
  ("push_17", 17), ("push_18", 18), ("push_19", 19), ("push_20", 20), ("push_21", 21), ("push_22", 22),
  ("push_23", 23), ("push_24", 24), ("push_25", 25), ("push_26", 26), ("push_27", 27), ("push_28", 28),
  ("push_29", 29), ("push_30", 30), ("push_31", 31), ("push_32", 32), ("push_33", 33), ("push_34", 34),
  ("push_35", 35), ("push_36", 36), ("push_37", 37), ("push_38", 38), ("push_39", 39), ("push_40", 40),
  ("push_41", 41), ("push_42", 42), ("push_43", 43), ("push_44", 44), ("push_45", 45), ("push_46", 46),
  ("push_47", 47), ("push_48", 48), ("push_49", 49), ("push_50", 50), ("push_51", 51), ("push_52", 52),
  ("push_53", 53), ("push_54", 54), ("push_55", 55), ("push_56", 56), ("push_57", 57), ("push_58", 58),
  ("push_59", 59), ("push_60", 60), ("push_61", 61), ("push_62", 62), ("push_63", 63), ("push_64", 64),
  ("push_65", 65), ("push_66", 66), ("push_67", 67), ("push_68", 68), ("push_69", 69), ("push_70", 70),
  ("push_71", 71), ("push_72", 72), ("push_73", 73), ("push_74", 74), ("push_75", 75), ("push_one", 76),
  ("pushdata1", 76), ("push_two", 77), ("pushdata2", 77), ("push_four", 78), ("pushdata4", 78), ("-1", 79),
  ("reserved_80", 80), ("reserved", 80), ("0", 0), ("1", 81), ("2", 82), ("3", 83),
  ("4", 84), ("5", 85), ("6", 86), ("7", 87), ("8", 88), ("9", 89),
  ("10", 90), ("11", 91), ("12", 92), ("13", 93), ("14", 94), ("15", 95),
  ("16", 96), ("nop", 97), ("op_ver", 98), ("ver", 98), ("if", 99), ("notif", 100),
  ("op_verif", 101), ("verif", 101), ("op_vernotif", 102), ("vernotif", 102), ("else", 103), ("endif", 104),
  ("verify", 105), ("return", 106), ("toaltstack", 107), ("fromaltstack", 108), ("drop2", 109), ("2drop", 109),
  ("dup2", 110), ("2dup", 110), ("dup3", 111), ("3dup", 111), ("over2", 112), ("2over", 112),
  ("rot2", 113), ("2rot", 113), ("swap2", 114), ("2swap", 114), ("ifdup", 115), ("depth", 116),
  ("drop", 117), ("dup", 118), ("nip", 119), ("over", 120), ("pick", 121), ("roll", 122),
  ("rot", 123), ("swap", 124), ("tuck", 125), ("cat", 126), ("substr", 127), ("left", 128),
  ("right", 129), ("size", 130), ("invert", 131), ("and", 132), ("or", 133), ("xor", 134),
  ("equal", 135), ("equalverify", 136), ("reserved_137", 137), ("reserved1", 137), ("reserved_138", 138), ("reserved2", 138),
  ("add1", 139), ("1add", 139), ("sub1", 140), ("1sub", 140), ("mul2", 141), ("2mul", 141),
  ("div2", 142), ("2div", 142), ("negate", 143), ("abs", 144), ("not", 145), ("nonzero", 146),
  ("0notequal", 146), ("add", 147), ("sub", 148), ("mul", 149), ("div", 150), ("mod", 151),
  ("lshift", 152), ("rshift", 153), ("booland", 154), ("boolor", 155), ("numequal", 156), ("numequalverify", 157),
  ("numnotequal", 158), ("lessthan", 159), ("greaterthan", 160), ("lessthanorequal", 161), ("greaterthanorequal", 162), ("min", 163),
  ("max", 164), ("within", 165), ("ripemd160", 166), ("sha1", 167), ("sha256", 168), ("hash160", 169),
  ("hash256", 170), ("codeseparator", 171), ("checksig", 172), ("checksigverify", 173), ("checkmultisig", 174), ("checkmultisigverify", 175),
  ("nop1", 176), ("checklocktimeverify", 177), ("nop2", 177), ("checksequenceverify", 178), ("nop3", 178), ("nop4", 179),
  ("nop5", 180), ("nop6", 181), ("nop7", 182), ("nop8", 183), ("nop9", 184), ("nop10", 185),
  ("checksigadd", 186), ("reserved_186", 186), ("reserved_186", 186), ("reserved_187", 187), ("reserved_188", 188), ("reserved_189", 189),
  ("reserved_190", 190), ("reserved_191", 191), ("reserved_192", 192), ("reserved_193", 193), ("reserved_194", 194), ("reserved_195", 195),
  ("reserved_196", 196), ("reserved_197", 197), ("reserved_198", 198), ("reserved_199", 199), ("reserved_200", 200), ("reserved_201", 201),
  ("reserved_202", 202), ("reserved_203", 203), ("reserved_204", 204), ("reserved_205", 205), ("reserved_206", 206), ("reserved_207", 207),
  ("reserved_208", 208), ("reserved_209", 209), ("reserved_210", 210), ("reserved_211", 211), ("reserved_212", 212), ("reserved_213", 213),
  ("reserved_214", 214), ("reserved_215", 215), ("reserved_216", 216), ("reserved_217", 217), ("reserved_218", 218), ("reserved_219", 219),
  ("reserved_220", 220), ("reserved_221", 221), ("reserved_222", 222), ("reserved_223", 223), ("reserved_224", 224), ("reserved_225", 225),
  ("reserved_226", 226), ("reserved_227", 227), ("reserved_228", 228), ("reserved_229", 229), ("reserved_230", 230), ("reserved_231", 231),
  ("reserved_232", 232), ("reserved_233", 233), ("reserved_234", 234), ("reserved_235", 235), ("reserved_236", 236), ("reserved_237", 237),
  ("reserved_238", 238), ("reserved_239", 239), ("reserved_240", 240), ("reserved_241", 241), ("reserved_242", 242), ("reserved_243", 243),
  ("reserved_244", 244), ("reserved_245", 245), ("reserved_246", 246), ("reserved_247", 247), ("reserved_248", 248), ("reserved_249", 249),
  ("reserved_250", 250), ("reserved_251", 251), ("reserved_252", 252), ("reserved_253", 253), ("reserved_254", 254), ("reserved_255", 255)]

end Verif.Catalog
