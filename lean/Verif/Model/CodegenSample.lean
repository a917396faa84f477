import Verif.Model.CodegenRun

/-!
# The expected code in test/codegen/sample.cpp

Generated from the file: its lines that contain `//$`, with their numbers (`parse_expected_disassembly` skips the others), and what
`parse_expected_disassembly` makes of them (`C87_sample`).
-/

namespace Opt.Run

/-- test/codegen/sample.cpp 6-14 -/
def lines_option_int_assign : List (Nat × Text) :=
  [(6, txt"//$ @option_int_assign:"),
   (7, txt"//$ mov dword ptr [rdi], 0x2"),
   (8, txt"//$ mov byte ptr [rdi + 0x4], 0x1"),
   (9, txt"//$ ret"),
   (11, txt"//$ @option_int_assign {msvc,clang-cl}:"),
   (12, txt"//$ mov dword ptr [rcx], 0x2"),
   (13, txt"//$ mov byte ptr [rcx + 0x4], 0x1"),
   (14, txt"//$ ret")]

/-- the sections of `option_int_assign` -/
def secs_option_int_assign : List Section :=
  [⟨6, txt"option_int_assign", none, [txt"mov dword ptr [rdi], 0x2", txt"mov byte ptr [rdi + 0x4], 0x1", txt"ret"]⟩,
   ⟨11, txt"option_int_assign", some (txt"msvc,clang-cl"), [txt"mov dword ptr [rcx], 0x2", txt"mov byte ptr [rcx + 0x4], 0x1", txt"ret"]⟩]

/-- test/codegen/sample.cpp 19-43 -/
def lines_option_int_assign_option : List (Nat × Text) :=
  [(19, txt"//$ @option_int_assign_option:"),
   (20, txt"//$ movzx eax, byte ptr [rsi + 0x4]"),
   (21, txt"//$ mov byte ptr [rdi + 0x4], al"),
   (22, txt"//$ mov eax, dword ptr [rsi]"),
   (23, txt"//$ mov dword ptr [rdi], eax"),
   (24, txt"//$ ret"),
   (26, txt"//$ @option_int_assign_option {clang <15}:"),
   (27, txt"//$ mov al, byte ptr [rsi + 0x4]"),
   (28, txt"//$ mov byte ptr [rdi + 0x4], al"),
   (29, txt"//$ mov eax, dword ptr [rsi]"),
   (30, txt"//$ mov dword ptr [rdi], eax"),
   (31, txt"//$ ret"),
   (33, txt"//$ @option_int_assign_option {gcc}:"),
   (34, txt"//$ mov eax, dword ptr [rsi]"),
   (35, txt"//$ mov dword ptr [rdi], eax"),
   (36, txt"//$ movzx eax, byte ptr [rsi + 0x4]"),
   (37, txt"//$ mov byte ptr [rdi + 0x4], al"),
   (38, txt"//$ ret"),
   (40, txt"//$ @option_int_assign_option {msvc,clang-cl}:"),
   (41, txt"//$ mov rax, qword ptr [rdx]"),
   (42, txt"//$ mov qword ptr [rcx], rax"),
   (43, txt"//$ ret")]

/-- the sections of `option_int_assign_option` -/
def secs_option_int_assign_option : List Section :=
  [⟨19, txt"option_int_assign_option", none, [txt"movzx eax, byte ptr [rsi + 0x4]", txt"mov byte ptr [rdi + 0x4], al", txt"mov eax, dword ptr [rsi]", txt"mov dword ptr [rdi], eax", txt"ret"]⟩,
   ⟨26, txt"option_int_assign_option", some (txt"clang <15"), [txt"mov al, byte ptr [rsi + 0x4]", txt"mov byte ptr [rdi + 0x4], al", txt"mov eax, dword ptr [rsi]", txt"mov dword ptr [rdi], eax", txt"ret"]⟩,
   ⟨33, txt"option_int_assign_option", some (txt"gcc"), [txt"mov eax, dword ptr [rsi]", txt"mov dword ptr [rdi], eax", txt"movzx eax, byte ptr [rsi + 0x4]", txt"mov byte ptr [rdi + 0x4], al", txt"ret"]⟩,
   ⟨40, txt"option_int_assign_option", some (txt"msvc,clang-cl"), [txt"mov rax, qword ptr [rdx]", txt"mov qword ptr [rcx], rax", txt"ret"]⟩]

/-- test/codegen/sample.cpp 48-70 -/
def lines_option_int_return : List (Nat × Text) :=
  [(48, txt"//$ @option_int_return:"),
   (49, txt"//$ movabs rax, 0x100000002"),
   (50, txt"//$ ret"),
   (53, txt"//$ @option_int_return {gcc}:"),
   (54, txt"//$ mov dword ptr [rsp - 0x8], 0x2"),
   (55, txt"//$ mov byte ptr [rsp - 0x4], 0x1"),
   (56, txt"//$ mov rax, qword ptr [rsp - 0x8]"),
   (57, txt"//$ ret"),
   (60, txt"//$ @option_int_return {msvc}:"),
   (61, txt"//$ mov dword ptr [rcx], 0x2"),
   (62, txt"//$ mov rax, rcx"),
   (63, txt"//$ mov byte ptr [rcx + 0x4], 0x1"),
   (64, txt"//$ ret"),
   (66, txt"//$ @option_int_return {clang-cl}:"),
   (67, txt"//$ mov rax, rcx"),
   (68, txt"//$ mov dword ptr [rcx], 0x2"),
   (69, txt"//$ mov byte ptr [rcx + 0x4], 0x1"),
   (70, txt"//$ ret")]

/-- the sections of `option_int_return` -/
def secs_option_int_return : List Section :=
  [⟨48, txt"option_int_return", none, [txt"movabs rax, 0x100000002", txt"ret"]⟩,
   ⟨53, txt"option_int_return", some (txt"gcc"), [txt"mov dword ptr [rsp - 0x8], 0x2", txt"mov byte ptr [rsp - 0x4], 0x1", txt"mov rax, qword ptr [rsp - 0x8]", txt"ret"]⟩,
   ⟨60, txt"option_int_return", some (txt"msvc"), [txt"mov dword ptr [rcx], 0x2", txt"mov rax, rcx", txt"mov byte ptr [rcx + 0x4], 0x1", txt"ret"]⟩,
   ⟨66, txt"option_int_return", some (txt"clang-cl"), [txt"mov rax, rcx", txt"mov dword ptr [rcx], 0x2", txt"mov byte ptr [rcx + 0x4], 0x1", txt"ret"]⟩]

/-- test/codegen/sample.cpp 75-81 -/
def lines_option_float_assign : List (Nat × Text) :=
  [(75, txt"//$ @option_float_assign:"),
   (76, txt"//$ mov dword ptr [rdi], 0x3f800000"),
   (77, txt"//$ ret"),
   (79, txt"//$ @option_float_assign {msvc,clang-cl}:"),
   (80, txt"//$ mov dword ptr [rcx], 0x3f800000"),
   (81, txt"//$ ret")]

/-- the sections of `option_float_assign` -/
def secs_option_float_assign : List Section :=
  [⟨75, txt"option_float_assign", none, [txt"mov dword ptr [rdi], 0x3f800000", txt"ret"]⟩,
   ⟨79, txt"option_float_assign", some (txt"msvc,clang-cl"), [txt"mov dword ptr [rcx], 0x3f800000", txt"ret"]⟩]

/-- test/codegen/sample.cpp 86-114 -/
def lines_optional_float_assign : List (Nat × Text) :=
  [(86, txt"//$ @optional_float_assign:"),
   (87, txt"//$ mov dword ptr [rdi], 0x3f800000"),
   (88, txt"//$ mov byte ptr [rdi + 0x4], 0x1"),
   (89, txt"//$ ret"),
   (91, txt"//$ @optional_float_assign {clang & old-libstdcpp <12.0}:"),
   (92, txt"//$ movabs rax, 0x13f800000"),
   (93, txt"//$ mov qword ptr [rdi], rax"),
   (94, txt"//$ ret"),
   (96, txt"//$ @optional_float_assign {clang-cl}:"),
   (97, txt"//$ mov dword ptr [rcx], 0x3f800000"),
   (98, txt"//$ mov byte ptr [rcx + 0x4], 0x1"),
   (99, txt"//$ ret"),
   (101, txt"//$ @optional_float_assign {msvc >19.29.30157.0}:"),
   (102, txt"//$ mov dword ptr [rsp + 0x8], 0x3f800000"),
   (103, txt"//$ mov byte ptr [rsp + 0xc], 0x1"),
   (104, txt"//$ mov rax, qword ptr [rsp + 0x8]"),
   (105, txt"//$ mov qword ptr [rcx], rax"),
   (106, txt"//$ ret"),
   (108, txt"//$ @optional_float_assign {msvc <=19.29.30157.0}:"),
   (109, txt"//$ movss xmm0, dword ptr <void __cdecl optional_float_assign(class std::optional<float> *)+0x8>"),
   (110, txt"//$ movss dword ptr [rsp + 0x8], xmm0"),
   (111, txt"//$ mov byte ptr [rsp + 0xc], 0x1"),
   (112, txt"//$ mov rax, qword ptr [rsp + 0x8]"),
   (113, txt"//$ mov qword ptr [rcx], rax"),
   (114, txt"//$ ret")]

/-- the sections of `optional_float_assign` -/
def secs_optional_float_assign : List Section :=
  [⟨86, txt"optional_float_assign", none, [txt"mov dword ptr [rdi], 0x3f800000", txt"mov byte ptr [rdi + 0x4], 0x1", txt"ret"]⟩,
   ⟨91, txt"optional_float_assign", some (txt"clang & old-libstdcpp <12.0"), [txt"movabs rax, 0x13f800000", txt"mov qword ptr [rdi], rax", txt"ret"]⟩,
   ⟨96, txt"optional_float_assign", some (txt"clang-cl"), [txt"mov dword ptr [rcx], 0x3f800000", txt"mov byte ptr [rcx + 0x4], 0x1", txt"ret"]⟩,
   ⟨101, txt"optional_float_assign", some (txt"msvc >19.29.30157.0"), [txt"mov dword ptr [rsp + 0x8], 0x3f800000", txt"mov byte ptr [rsp + 0xc], 0x1", txt"mov rax, qword ptr [rsp + 0x8]", txt"mov qword ptr [rcx], rax", txt"ret"]⟩,
   ⟨108, txt"optional_float_assign", some (txt"msvc <=19.29.30157.0"), [txt"movss xmm0, dword ptr <void __cdecl optional_float_assign(class std::optional<float> *)+0x8>", txt"movss dword ptr [rsp + 0x8], xmm0", txt"mov byte ptr [rsp + 0xc], 0x1", txt"mov rax, qword ptr [rsp + 0x8]", txt"mov qword ptr [rcx], rax", txt"ret"]⟩]

/-- test/codegen/sample.cpp 119-131 -/
def lines_option_float_return : List (Nat × Text) :=
  [(119, txt"//$ @option_float_return:"),
   (120, txt"//$ mov eax, 0x3f800000"),
   (121, txt"//$ ret"),
   (123, txt"//$ @option_float_return {clang-cl}:"),
   (124, txt"//$ mov rax, rcx"),
   (125, txt"//$ mov dword ptr [rcx], 0x3f800000"),
   (126, txt"//$ ret"),
   (128, txt"//$ @option_float_return {msvc}:"),
   (129, txt"//$ mov dword ptr [rcx], 0x3f800000"),
   (130, txt"//$ mov rax, rcx"),
   (131, txt"//$ ret")]

/-- the sections of `option_float_return` -/
def secs_option_float_return : List Section :=
  [⟨119, txt"option_float_return", none, [txt"mov eax, 0x3f800000", txt"ret"]⟩,
   ⟨123, txt"option_float_return", some (txt"clang-cl"), [txt"mov rax, rcx", txt"mov dword ptr [rcx], 0x3f800000", txt"ret"]⟩,
   ⟨128, txt"option_float_return", some (txt"msvc"), [txt"mov dword ptr [rcx], 0x3f800000", txt"mov rax, rcx", txt"ret"]⟩]

/-- test/codegen/sample.cpp 136-156 -/
def lines_optional_float_return : List (Nat × Text) :=
  [(136, txt"//$ @optional_float_return:"),
   (137, txt"//$ movabs rax, 0x13f800000"),
   (138, txt"//$ ret"),
   (140, txt"//$ @optional_float_return {gcc}:"),
   (141, txt"//$ mov dword ptr [rsp - 0x8], 0x3f800000"),
   (142, txt"//$ mov byte ptr [rsp - 0x4], 0x1"),
   (143, txt"//$ mov rax, qword ptr [rsp - 0x8]"),
   (144, txt"//$ ret"),
   (146, txt"//$ @optional_float_return {clang-cl}:"),
   (147, txt"//$ mov rax, rcx"),
   (148, txt"//$ mov dword ptr [rcx], 0x3f800000"),
   (149, txt"//$ mov byte ptr [rcx + 0x4], 0x1"),
   (150, txt"//$ ret"),
   (152, txt"//$ @optional_float_return {msvc}:"),
   (153, txt"//$ mov dword ptr [rcx], 0x3f800000"),
   (154, txt"//$ mov rax, rcx"),
   (155, txt"//$ mov byte ptr [rcx + 0x4], 0x1"),
   (156, txt"//$ ret")]

/-- the sections of `optional_float_return` -/
def secs_optional_float_return : List Section :=
  [⟨136, txt"optional_float_return", none, [txt"movabs rax, 0x13f800000", txt"ret"]⟩,
   ⟨140, txt"optional_float_return", some (txt"gcc"), [txt"mov dword ptr [rsp - 0x8], 0x3f800000", txt"mov byte ptr [rsp - 0x4], 0x1", txt"mov rax, qword ptr [rsp - 0x8]", txt"ret"]⟩,
   ⟨146, txt"optional_float_return", some (txt"clang-cl"), [txt"mov rax, rcx", txt"mov dword ptr [rcx], 0x3f800000", txt"mov byte ptr [rcx + 0x4], 0x1", txt"ret"]⟩,
   ⟨152, txt"optional_float_return", some (txt"msvc"), [txt"mov dword ptr [rcx], 0x3f800000", txt"mov rax, rcx", txt"mov byte ptr [rcx + 0x4], 0x1", txt"ret"]⟩]

/-- test/codegen/sample.cpp 161-175 -/
def lines_option_double_return : List (Nat × Text) :=
  [(161, txt"//$ @option_double_return:"),
   (162, txt"//$ movabs rax, 0x3ff0000000000000"),
   (163, txt"//$ ret"),
   (165, txt"//$ @option_double_return {msvc}:"),
   (166, txt"//$ movabs rax, 0x3ff0000000000000"),
   (167, txt"//$ mov qword ptr [rcx], rax"),
   (168, txt"//$ mov rax, rcx"),
   (169, txt"//$ ret"),
   (171, txt"//$ @option_double_return {clang-cl}:"),
   (172, txt"//$ mov rax, rcx"),
   (173, txt"//$ movabs rcx, 0x3ff0000000000000"),
   (174, txt"//$ mov qword ptr [rax], rcx"),
   (175, txt"//$ ret")]

/-- the sections of `option_double_return` -/
def secs_option_double_return : List Section :=
  [⟨161, txt"option_double_return", none, [txt"movabs rax, 0x3ff0000000000000", txt"ret"]⟩,
   ⟨165, txt"option_double_return", some (txt"msvc"), [txt"movabs rax, 0x3ff0000000000000", txt"mov qword ptr [rcx], rax", txt"mov rax, rcx", txt"ret"]⟩,
   ⟨171, txt"option_double_return", some (txt"clang-cl"), [txt"mov rax, rcx", txt"movabs rcx, 0x3ff0000000000000", txt"mov qword ptr [rax], rcx", txt"ret"]⟩]

/-- test/codegen/sample.cpp 180-214 -/
def lines_optional_double_return : List (Nat × Text) :=
  [(180, txt"//$ @optional_double_return:"),
   (181, txt"//$ movsd xmm0, qword ptr <optional_double_return()+0x8>"),
   (182, txt"//$ mov al, 0x1"),
   (183, txt"//$ ret"),
   (185, txt"//$ @optional_double_return {clang & libcpp}:"),
   (186, txt"//$ movabs rax, 0x3ff0000000000000"),
   (187, txt"//$ mov dl, 0x1"),
   (188, txt"//$ ret"),
   (190, txt"//$ @optional_double_return {gcc 14, gcc <13}:"),
   (191, txt"//$ mov byte ptr [rsp - 0x10], 0x1"),
   (192, txt"//$ movsd xmm0, qword ptr <optional_double_return()+0x11>"),
   (193, txt"//$ mov rax, qword ptr [rsp - 0x10]"),
   (194, txt"//$ ret"),
   (196, txt"//$ @optional_double_return {gcc 13}:"),
   (197, txt"//$ mov byte ptr [rsp - 0x10], 0x1"),
   (198, txt"//$ movsd xmm0, qword ptr <optional_double_return()+0xd>"),
   (199, txt"//$ mov rax, qword ptr [rsp - 0x10]"),
   (200, txt"//$ ret"),
   (202, txt"//$ @optional_double_return {msvc}:"),
   (203, txt"//$ movabs rax, 0x3ff0000000000000"),
   (204, txt"//$ mov byte ptr [rcx + 0x8], 0x1"),
   (205, txt"//$ mov qword ptr [rcx], rax"),
   (206, txt"//$ mov rax, rcx"),
   (207, txt"//$ ret"),
   (209, txt"//$ @optional_double_return {clang-cl}:"),
   (210, txt"//$ mov rax, rcx"),
   (211, txt"//$ movabs rcx, 0x3ff0000000000000"),
   (212, txt"//$ mov qword ptr [rax], rcx"),
   (213, txt"//$ mov byte ptr [rax + 0x8], 0x1"),
   (214, txt"//$ ret")]

/-- the sections of `optional_double_return` -/
def secs_optional_double_return : List Section :=
  [⟨180, txt"optional_double_return", none, [txt"movsd xmm0, qword ptr <optional_double_return()+0x8>", txt"mov al, 0x1", txt"ret"]⟩,
   ⟨185, txt"optional_double_return", some (txt"clang & libcpp"), [txt"movabs rax, 0x3ff0000000000000", txt"mov dl, 0x1", txt"ret"]⟩,
   ⟨190, txt"optional_double_return", some (txt"gcc 14, gcc <13"), [txt"mov byte ptr [rsp - 0x10], 0x1", txt"movsd xmm0, qword ptr <optional_double_return()+0x11>", txt"mov rax, qword ptr [rsp - 0x10]", txt"ret"]⟩,
   ⟨196, txt"optional_double_return", some (txt"gcc 13"), [txt"mov byte ptr [rsp - 0x10], 0x1", txt"movsd xmm0, qword ptr <optional_double_return()+0xd>", txt"mov rax, qword ptr [rsp - 0x10]", txt"ret"]⟩,
   ⟨202, txt"optional_double_return", some (txt"msvc"), [txt"movabs rax, 0x3ff0000000000000", txt"mov byte ptr [rcx + 0x8], 0x1", txt"mov qword ptr [rcx], rax", txt"mov rax, rcx", txt"ret"]⟩,
   ⟨209, txt"optional_double_return", some (txt"clang-cl"), [txt"mov rax, rcx", txt"movabs rcx, 0x3ff0000000000000", txt"mov qword ptr [rax], rcx", txt"mov byte ptr [rax + 0x8], 0x1", txt"ret"]⟩]

/-- test/codegen/sample.cpp 221-243 -/
def lines_option_enum_uint16_return : List (Nat × Text) :=
  [(221, txt"//$ @option_enum_uint16_return:"),
   (222, txt"//$ mov ax, 0x2"),
   (223, txt"//$ ret"),
   (225, txt"//$ @option_enum_uint16_return {gcc}:"),
   (226, txt"//$ mov eax, 0x2"),
   (227, txt"//$ ret"),
   (229, txt"//$ @option_enum_uint16_return {msvc >19.29.30157.0}:"),
   (230, txt"//$ mov word ptr [rcx], 0x2"),
   (231, txt"//$ mov rax, rcx"),
   (232, txt"//$ ret"),
   (234, txt"//$ @option_enum_uint16_return {msvc <=19.29.30157.0}:"),
   (235, txt"//$ mov eax, 0x2"),
   (236, txt"//$ mov word ptr [rcx], ax"),
   (237, txt"//$ mov rax, rcx"),
   (238, txt"//$ ret"),
   (240, txt"//$ @option_enum_uint16_return {clang-cl}:"),
   (241, txt"//$ mov rax, rcx"),
   (242, txt"//$ mov word ptr [rcx], 0x2"),
   (243, txt"//$ ret")]

/-- the sections of `option_enum_uint16_return` -/
def secs_option_enum_uint16_return : List Section :=
  [⟨221, txt"option_enum_uint16_return", none, [txt"mov ax, 0x2", txt"ret"]⟩,
   ⟨225, txt"option_enum_uint16_return", some (txt"gcc"), [txt"mov eax, 0x2", txt"ret"]⟩,
   ⟨229, txt"option_enum_uint16_return", some (txt"msvc >19.29.30157.0"), [txt"mov word ptr [rcx], 0x2", txt"mov rax, rcx", txt"ret"]⟩,
   ⟨234, txt"option_enum_uint16_return", some (txt"msvc <=19.29.30157.0"), [txt"mov eax, 0x2", txt"mov word ptr [rcx], ax", txt"mov rax, rcx", txt"ret"]⟩,
   ⟨240, txt"option_enum_uint16_return", some (txt"clang-cl"), [txt"mov rax, rcx", txt"mov word ptr [rcx], 0x2", txt"ret"]⟩]

/-- test/codegen/sample.cpp 248-276 -/
def lines_optional_enum_uint16_return : List (Nat × Text) :=
  [(248, txt"//$ @optional_enum_uint16_return:"),
   (249, txt"//$ mov eax, 0x10002"),
   (250, txt"//$ ret"),
   (252, txt"//$ @optional_enum_uint16_return {gcc}:"),
   (253, txt"//$ mov eax, 0x2"),
   (254, txt"//$ mov byte ptr [rsp - 0x2], 0x1"),
   (255, txt"//$ mov word ptr [rsp - 0x4], ax"),
   (256, txt"//$ mov eax, dword ptr [rsp - 0x4]"),
   (257, txt"//$ ret"),
   (259, txt"//$ @optional_enum_uint16_return {msvc >19.29.30157.0}:"),
   (260, txt"//$ mov word ptr [rcx], 0x2"),
   (261, txt"//$ mov rax, rcx"),
   (262, txt"//$ mov byte ptr [rcx + 0x2], 0x1"),
   (263, txt"//$ ret"),
   (265, txt"//$ @optional_enum_uint16_return {msvc <=19.29.30157.0}:"),
   (266, txt"//$ mov eax, 0x2"),
   (267, txt"//$ mov byte ptr [rcx + 0x2], 0x1"),
   (268, txt"//$ mov word ptr [rcx], ax"),
   (269, txt"//$ mov rax, rcx"),
   (270, txt"//$ ret"),
   (272, txt"//$ @optional_enum_uint16_return {clang-cl}:"),
   (273, txt"//$ mov rax, rcx"),
   (274, txt"//$ mov word ptr [rcx], 0x2"),
   (275, txt"//$ mov byte ptr [rcx + 0x2], 0x1"),
   (276, txt"//$ ret")]

/-- the sections of `optional_enum_uint16_return` -/
def secs_optional_enum_uint16_return : List Section :=
  [⟨248, txt"optional_enum_uint16_return", none, [txt"mov eax, 0x10002", txt"ret"]⟩,
   ⟨252, txt"optional_enum_uint16_return", some (txt"gcc"), [txt"mov eax, 0x2", txt"mov byte ptr [rsp - 0x2], 0x1", txt"mov word ptr [rsp - 0x4], ax", txt"mov eax, dword ptr [rsp - 0x4]", txt"ret"]⟩,
   ⟨259, txt"optional_enum_uint16_return", some (txt"msvc >19.29.30157.0"), [txt"mov word ptr [rcx], 0x2", txt"mov rax, rcx", txt"mov byte ptr [rcx + 0x2], 0x1", txt"ret"]⟩,
   ⟨265, txt"optional_enum_uint16_return", some (txt"msvc <=19.29.30157.0"), [txt"mov eax, 0x2", txt"mov byte ptr [rcx + 0x2], 0x1", txt"mov word ptr [rcx], ax", txt"mov rax, rcx", txt"ret"]⟩,
   ⟨272, txt"optional_enum_uint16_return", some (txt"clang-cl"), [txt"mov rax, rcx", txt"mov word ptr [rcx], 0x2", txt"mov byte ptr [rcx + 0x2], 0x1", txt"ret"]⟩]

/-- test/codegen/sample.cpp 281-287 -/
def lines_option_float_reset : List (Nat × Text) :=
  [(281, txt"//$ @option_float_reset:"),
   (282, txt"//$ mov dword ptr [rdi], 0xffbf69af"),
   (283, txt"//$ ret"),
   (285, txt"//$ @option_float_reset {msvc,clang-cl}:"),
   (286, txt"//$ mov dword ptr [rcx], 0xffbf69af"),
   (287, txt"//$ ret")]

/-- the sections of `option_float_reset` -/
def secs_option_float_reset : List Section :=
  [⟨281, txt"option_float_reset", none, [txt"mov dword ptr [rdi], 0xffbf69af", txt"ret"]⟩,
   ⟨285, txt"option_float_reset", some (txt"msvc,clang-cl"), [txt"mov dword ptr [rcx], 0xffbf69af", txt"ret"]⟩]

/-- test/codegen/sample.cpp 292-305 -/
def lines_optional_float_reset : List (Nat × Text) :=
  [(292, txt"//$ @optional_float_reset:"),
   (293, txt"//$ mov byte ptr [rdi + 0x4], 0x0"),
   (294, txt"//$ ret"),
   (296, txt"//$ @optional_float_reset {clang & libcpp,clang & old-libstdcpp,gcc <13.0,gcc & old-libstdcpp,icx}:"),
   (297, txt"//$ cmp byte ptr [rdi + 0x4], 0x0"),
   (298, txt"//$ je <L0>"),
   (299, txt"//$ mov byte ptr [rdi + 0x4], 0x0"),
   (300, txt"//$ <L0>:"),
   (301, txt"//$ ret"),
   (303, txt"//$ @optional_float_reset {msvc,clang-cl}:"),
   (304, txt"//$ mov byte ptr [rcx + 0x4], 0x0"),
   (305, txt"//$ ret")]

/-- the sections of `optional_float_reset` -/
def secs_optional_float_reset : List Section :=
  [⟨292, txt"optional_float_reset", none, [txt"mov byte ptr [rdi + 0x4], 0x0", txt"ret"]⟩,
   ⟨296, txt"optional_float_reset", some (txt"clang & libcpp,clang & old-libstdcpp,gcc <13.0,gcc & old-libstdcpp,icx"), [txt"cmp byte ptr [rdi + 0x4], 0x0", txt"je <L0>", txt"mov byte ptr [rdi + 0x4], 0x0", txt"<L0>:", txt"ret"]⟩,
   ⟨303, txt"optional_float_reset", some (txt"msvc,clang-cl"), [txt"mov byte ptr [rcx + 0x4], 0x0", txt"ret"]⟩]

/-- test/codegen/sample.cpp 310-316 -/
def lines_option_float_emplace : List (Nat × Text) :=
  [(310, txt"//$ @option_float_emplace:"),
   (311, txt"//$ mov dword ptr [rdi], 0x3f800000"),
   (312, txt"//$ ret"),
   (314, txt"//$ @option_float_emplace {msvc,clang-cl}:"),
   (315, txt"//$ mov dword ptr [rcx], 0x3f800000"),
   (316, txt"//$ ret")]

/-- the sections of `option_float_emplace` -/
def secs_option_float_emplace : List Section :=
  [⟨310, txt"option_float_emplace", none, [txt"mov dword ptr [rdi], 0x3f800000", txt"ret"]⟩,
   ⟨314, txt"option_float_emplace", some (txt"msvc,clang-cl"), [txt"mov dword ptr [rcx], 0x3f800000", txt"ret"]⟩]

/-- test/codegen/sample.cpp 321-338 -/
def lines_optional_float_emplace : List (Nat × Text) :=
  [(321, txt"//$ @optional_float_emplace:"),
   (322, txt"//$ mov dword ptr [rdi], 0x3f800000"),
   (323, txt"//$ mov byte ptr [rdi + 0x4], 0x1"),
   (324, txt"//$ ret"),
   (326, txt"//$ @optional_float_emplace {clang & old-libstdcpp <12.0,clang & libcpp <12.0}:"),
   (327, txt"//$ cmp byte ptr [rdi + 0x4], 0x0"),
   (328, txt"//$ je <L0>"),
   (329, txt"//$ mov byte ptr [rdi + 0x4], 0x0"),
   (330, txt"//$ <L0>:"),
   (331, txt"//$ mov dword ptr [rdi], 0x3f800000"),
   (332, txt"//$ mov byte ptr [rdi + 0x4], 0x1"),
   (333, txt"//$ ret"),
   (335, txt"//$ @optional_float_emplace {msvc,clang-cl}:"),
   (336, txt"//$ mov dword ptr [rcx], 0x3f800000"),
   (337, txt"//$ mov byte ptr [rcx + 0x4], 0x1"),
   (338, txt"//$ ret")]

/-- the sections of `optional_float_emplace` -/
def secs_optional_float_emplace : List Section :=
  [⟨321, txt"optional_float_emplace", none, [txt"mov dword ptr [rdi], 0x3f800000", txt"mov byte ptr [rdi + 0x4], 0x1", txt"ret"]⟩,
   ⟨326, txt"optional_float_emplace", some (txt"clang & old-libstdcpp <12.0,clang & libcpp <12.0"), [txt"cmp byte ptr [rdi + 0x4], 0x0", txt"je <L0>", txt"mov byte ptr [rdi + 0x4], 0x0", txt"<L0>:", txt"mov dword ptr [rdi], 0x3f800000", txt"mov byte ptr [rdi + 0x4], 0x1", txt"ret"]⟩,
   ⟨335, txt"optional_float_emplace", some (txt"msvc,clang-cl"), [txt"mov dword ptr [rcx], 0x3f800000", txt"mov byte ptr [rcx + 0x4], 0x1", txt"ret"]⟩]

/-- test/codegen/sample.cpp 343-349 -/
def lines_option_bool_reset : List (Nat × Text) :=
  [(343, txt"//$ @option_bool_reset:"),
   (344, txt"//$ mov byte ptr [rdi], 0x2"),
   (345, txt"//$ ret"),
   (347, txt"//$ @option_bool_reset {msvc,clang-cl}:"),
   (348, txt"//$ mov byte ptr [rcx], 0x2"),
   (349, txt"//$ ret")]

/-- the sections of `option_bool_reset` -/
def secs_option_bool_reset : List Section :=
  [⟨343, txt"option_bool_reset", none, [txt"mov byte ptr [rdi], 0x2", txt"ret"]⟩,
   ⟨347, txt"option_bool_reset", some (txt"msvc,clang-cl"), [txt"mov byte ptr [rcx], 0x2", txt"ret"]⟩]

/-- test/codegen/sample.cpp 354-367 -/
def lines_optional_bool_reset : List (Nat × Text) :=
  [(354, txt"//$ @optional_bool_reset:"),
   (355, txt"//$ mov byte ptr [rdi + 0x1], 0x0"),
   (356, txt"//$ ret"),
   (358, txt"//$ @optional_bool_reset {clang & libcpp,clang & old-libstdcpp,gcc <13.0,gcc & old-libstdcpp,icx}:"),
   (359, txt"//$ cmp byte ptr [rdi + 0x1], 0x0"),
   (360, txt"//$ je <L0>"),
   (361, txt"//$ mov byte ptr [rdi + 0x1], 0x0"),
   (362, txt"//$ <L0>:"),
   (363, txt"//$ ret"),
   (365, txt"//$ @optional_bool_reset {msvc,clang-cl}:"),
   (366, txt"//$ mov byte ptr [rcx + 0x1], 0x0"),
   (367, txt"//$ ret")]

/-- the sections of `optional_bool_reset` -/
def secs_optional_bool_reset : List Section :=
  [⟨354, txt"optional_bool_reset", none, [txt"mov byte ptr [rdi + 0x1], 0x0", txt"ret"]⟩,
   ⟨358, txt"optional_bool_reset", some (txt"clang & libcpp,clang & old-libstdcpp,gcc <13.0,gcc & old-libstdcpp,icx"), [txt"cmp byte ptr [rdi + 0x1], 0x0", txt"je <L0>", txt"mov byte ptr [rdi + 0x1], 0x0", txt"<L0>:", txt"ret"]⟩,
   ⟨365, txt"optional_bool_reset", some (txt"msvc,clang-cl"), [txt"mov byte ptr [rcx + 0x1], 0x0", txt"ret"]⟩]

/-- test/codegen/sample.cpp 372-390 -/
def lines_option_int_return_default_ctor : List (Nat × Text) :=
  [(372, txt"//$ @option_int_return_default_ctor:"),
   (373, txt"//$ xor eax, eax"),
   (374, txt"//$ ret"),
   (377, txt"//$ @option_int_return_default_ctor {gcc}:"),
   (378, txt"//$ mov byte ptr [rsp - 0x4], 0x0"),
   (379, txt"//$ mov rax, qword ptr [rsp - 0x8]"),
   (380, txt"//$ ret"),
   (382, txt"//$ @option_int_return_default_ctor {msvc}:"),
   (383, txt"//$ mov byte ptr [rcx + 0x4], 0x0"),
   (384, txt"//$ mov rax, rcx"),
   (385, txt"//$ ret"),
   (387, txt"//$ @option_int_return_default_ctor {clang-cl}:"),
   (388, txt"//$ mov rax, rcx"),
   (389, txt"//$ mov byte ptr [rcx + 0x4], 0x0"),
   (390, txt"//$ ret")]

/-- the sections of `option_int_return_default_ctor` -/
def secs_option_int_return_default_ctor : List Section :=
  [⟨372, txt"option_int_return_default_ctor", none, [txt"xor eax, eax", txt"ret"]⟩,
   ⟨377, txt"option_int_return_default_ctor", some (txt"gcc"), [txt"mov byte ptr [rsp - 0x4], 0x0", txt"mov rax, qword ptr [rsp - 0x8]", txt"ret"]⟩,
   ⟨382, txt"option_int_return_default_ctor", some (txt"msvc"), [txt"mov byte ptr [rcx + 0x4], 0x0", txt"mov rax, rcx", txt"ret"]⟩,
   ⟨387, txt"option_int_return_default_ctor", some (txt"clang-cl"), [txt"mov rax, rcx", txt"mov byte ptr [rcx + 0x4], 0x0", txt"ret"]⟩]

/-- test/codegen/sample.cpp 395-413 -/
def lines_option_int_return_none : List (Nat × Text) :=
  [(395, txt"//$ @option_int_return_none:"),
   (396, txt"//$ xor eax, eax"),
   (397, txt"//$ ret"),
   (400, txt"//$ @option_int_return_none {gcc}:"),
   (401, txt"//$ mov byte ptr [rsp - 0x4], 0x0"),
   (402, txt"//$ mov rax, qword ptr [rsp - 0x8]"),
   (403, txt"//$ ret"),
   (405, txt"//$ @option_int_return_none {msvc}:"),
   (406, txt"//$ mov byte ptr [rcx + 0x4], 0x0"),
   (407, txt"//$ mov rax, rcx"),
   (408, txt"//$ ret"),
   (410, txt"//$ @option_int_return_none {clang-cl}:"),
   (411, txt"//$ mov rax, rcx"),
   (412, txt"//$ mov byte ptr [rcx + 0x4], 0x0"),
   (413, txt"//$ ret")]

/-- the sections of `option_int_return_none` -/
def secs_option_int_return_none : List Section :=
  [⟨395, txt"option_int_return_none", none, [txt"xor eax, eax", txt"ret"]⟩,
   ⟨400, txt"option_int_return_none", some (txt"gcc"), [txt"mov byte ptr [rsp - 0x4], 0x0", txt"mov rax, qword ptr [rsp - 0x8]", txt"ret"]⟩,
   ⟨405, txt"option_int_return_none", some (txt"msvc"), [txt"mov byte ptr [rcx + 0x4], 0x0", txt"mov rax, rcx", txt"ret"]⟩,
   ⟨410, txt"option_int_return_none", some (txt"clang-cl"), [txt"mov rax, rcx", txt"mov byte ptr [rcx + 0x4], 0x0", txt"ret"]⟩]

/-- test/codegen/sample.cpp 418-448 -/
def lines_optional_int_return_default_ctor : List (Nat × Text) :=
  [(418, txt"//$ @optional_int_return_default_ctor:"),
   (419, txt"//$ xor eax, eax"),
   (420, txt"//$ ret"),
   (422, txt"//$ @optional_int_return_default_ctor {gcc >=11}:"),
   (423, txt"//$ mov byte ptr [rsp - 0x4], 0x0"),
   (424, txt"//$ mov rax, qword ptr [rsp - 0x8]"),
   (425, txt"//$ ret"),
   (427, txt"//$ @optional_int_return_default_ctor {gcc 10..<11}:"),
   (428, txt"//$ mov dword ptr [rsp - 0xc], 0x0"),
   (429, txt"//$ mov rax, qword ptr [rsp - 0x10]"),
   (430, txt"//$ ret"),
   (432, txt"//$ @optional_int_return_default_ctor {gcc <10}:"),
   (433, txt"//$ xor eax, eax"),
   (434, txt"//$ mov byte ptr [rsp - 0x9], 0x0"),
   (435, txt"//$ mov word ptr [rsp - 0xb], ax"),
   (436, txt"//$ mov byte ptr [rsp - 0xc], 0x0"),
   (437, txt"//$ mov rax, qword ptr [rsp - 0x10]"),
   (438, txt"//$ ret"),
   (440, txt"//$ @optional_int_return_default_ctor {msvc}:"),
   (441, txt"//$ mov byte ptr [rcx + 0x4], 0x0"),
   (442, txt"//$ mov rax, rcx"),
   (443, txt"//$ ret"),
   (445, txt"//$ @optional_int_return_default_ctor {clang-cl}:"),
   (446, txt"//$ mov rax, rcx"),
   (447, txt"//$ mov byte ptr [rcx + 0x4], 0x0"),
   (448, txt"//$ ret")]

/-- the sections of `optional_int_return_default_ctor` -/
def secs_optional_int_return_default_ctor : List Section :=
  [⟨418, txt"optional_int_return_default_ctor", none, [txt"xor eax, eax", txt"ret"]⟩,
   ⟨422, txt"optional_int_return_default_ctor", some (txt"gcc >=11"), [txt"mov byte ptr [rsp - 0x4], 0x0", txt"mov rax, qword ptr [rsp - 0x8]", txt"ret"]⟩,
   ⟨427, txt"optional_int_return_default_ctor", some (txt"gcc 10..<11"), [txt"mov dword ptr [rsp - 0xc], 0x0", txt"mov rax, qword ptr [rsp - 0x10]", txt"ret"]⟩,
   ⟨432, txt"optional_int_return_default_ctor", some (txt"gcc <10"), [txt"xor eax, eax", txt"mov byte ptr [rsp - 0x9], 0x0", txt"mov word ptr [rsp - 0xb], ax", txt"mov byte ptr [rsp - 0xc], 0x0", txt"mov rax, qword ptr [rsp - 0x10]", txt"ret"]⟩,
   ⟨440, txt"optional_int_return_default_ctor", some (txt"msvc"), [txt"mov byte ptr [rcx + 0x4], 0x0", txt"mov rax, rcx", txt"ret"]⟩,
   ⟨445, txt"optional_int_return_default_ctor", some (txt"clang-cl"), [txt"mov rax, rcx", txt"mov byte ptr [rcx + 0x4], 0x0", txt"ret"]⟩]

/-- test/codegen/sample.cpp 453-470 -/
def lines_optional_int_return_none : List (Nat × Text) :=
  [(453, txt"//$ @optional_int_return_none:"),
   (454, txt"//$ xor eax, eax"),
   (455, txt"//$ ret"),
   (457, txt"//$ @optional_int_return_none {gcc}:"),
   (458, txt"//$ mov byte ptr [rsp - 0x4], 0x0"),
   (459, txt"//$ mov rax, qword ptr [rsp - 0x8]"),
   (460, txt"//$ ret"),
   (462, txt"//$ @optional_int_return_none {msvc}:"),
   (463, txt"//$ mov byte ptr [rcx + 0x4], 0x0"),
   (464, txt"//$ mov rax, rcx"),
   (465, txt"//$ ret"),
   (467, txt"//$ @optional_int_return_none {clang-cl}:"),
   (468, txt"//$ mov rax, rcx"),
   (469, txt"//$ mov byte ptr [rcx + 0x4], 0x0"),
   (470, txt"//$ ret")]

/-- the sections of `optional_int_return_none` -/
def secs_optional_int_return_none : List Section :=
  [⟨453, txt"optional_int_return_none", none, [txt"xor eax, eax", txt"ret"]⟩,
   ⟨457, txt"optional_int_return_none", some (txt"gcc"), [txt"mov byte ptr [rsp - 0x4], 0x0", txt"mov rax, qword ptr [rsp - 0x8]", txt"ret"]⟩,
   ⟨462, txt"optional_int_return_none", some (txt"msvc"), [txt"mov byte ptr [rcx + 0x4], 0x0", txt"mov rax, rcx", txt"ret"]⟩,
   ⟨467, txt"optional_int_return_none", some (txt"clang-cl"), [txt"mov rax, rcx", txt"mov byte ptr [rcx + 0x4], 0x0", txt"ret"]⟩]

/-- test/codegen/sample.cpp 475-494 -/
def lines_option_int64_return_none : List (Nat × Text) :=
  [(475, txt"//$ @option_int64_return_none:"),
   (476, txt"//$ xor edx, edx"),
   (477, txt"//$ ret"),
   (480, txt"//$ @option_int64_return_none {gcc}:"),
   (481, txt"//$ mov byte ptr [rsp - 0x10], 0x0"),
   (482, txt"//$ mov rax, qword ptr [rsp - 0x18]"),
   (483, txt"//$ mov rdx, qword ptr [rsp - 0x10]"),
   (484, txt"//$ ret"),
   (486, txt"//$ @option_int64_return_none {msvc}:"),
   (487, txt"//$ mov byte ptr [rcx + 0x8], 0x0"),
   (488, txt"//$ mov rax, rcx"),
   (489, txt"//$ ret"),
   (491, txt"//$ @option_int64_return_none {clang-cl}:"),
   (492, txt"//$ mov rax, rcx"),
   (493, txt"//$ mov byte ptr [rcx + 0x8], 0x0"),
   (494, txt"//$ ret")]

/-- the sections of `option_int64_return_none` -/
def secs_option_int64_return_none : List Section :=
  [⟨475, txt"option_int64_return_none", none, [txt"xor edx, edx", txt"ret"]⟩,
   ⟨480, txt"option_int64_return_none", some (txt"gcc"), [txt"mov byte ptr [rsp - 0x10], 0x0", txt"mov rax, qword ptr [rsp - 0x18]", txt"mov rdx, qword ptr [rsp - 0x10]", txt"ret"]⟩,
   ⟨486, txt"option_int64_return_none", some (txt"msvc"), [txt"mov byte ptr [rcx + 0x8], 0x0", txt"mov rax, rcx", txt"ret"]⟩,
   ⟨491, txt"option_int64_return_none", some (txt"clang-cl"), [txt"mov rax, rcx", txt"mov byte ptr [rcx + 0x8], 0x0", txt"ret"]⟩]

/-- test/codegen/sample.cpp 499-517 -/
def lines_option_int_1024_return_none : List (Nat × Text) :=
  [(499, txt"//$ @option_int_1024_return_none:"),
   (500, txt"//$ mov rax, rdi"),
   (501, txt"//$ mov byte ptr [rdi + 0x1000], 0x0"),
   (502, txt"//$ ret"),
   (504, txt"//$ @option_int_1024_return_none {gcc}:"),
   (505, txt"//$ mov byte ptr [rdi + 0x1000], 0x0"),
   (506, txt"//$ mov rax, rdi"),
   (507, txt"//$ ret"),
   (509, txt"//$ @option_int_1024_return_none {msvc}:"),
   (510, txt"//$ mov byte ptr [rcx + 0x1000], 0x0"),
   (511, txt"//$ mov rax, rcx"),
   (512, txt"//$ ret"),
   (514, txt"//$ @option_int_1024_return_none {clang-cl}:"),
   (515, txt"//$ mov rax, rcx"),
   (516, txt"//$ mov byte ptr [rcx + 0x1000], 0x0"),
   (517, txt"//$ ret")]

/-- the sections of `option_int_1024_return_none` -/
def secs_option_int_1024_return_none : List Section :=
  [⟨499, txt"option_int_1024_return_none", none, [txt"mov rax, rdi", txt"mov byte ptr [rdi + 0x1000], 0x0", txt"ret"]⟩,
   ⟨504, txt"option_int_1024_return_none", some (txt"gcc"), [txt"mov byte ptr [rdi + 0x1000], 0x0", txt"mov rax, rdi", txt"ret"]⟩,
   ⟨509, txt"option_int_1024_return_none", some (txt"msvc"), [txt"mov byte ptr [rcx + 0x1000], 0x0", txt"mov rax, rcx", txt"ret"]⟩,
   ⟨514, txt"option_int_1024_return_none", some (txt"clang-cl"), [txt"mov rax, rcx", txt"mov byte ptr [rcx + 0x1000], 0x0", txt"ret"]⟩]

/-- test/codegen/sample.cpp 522-546 -/
def lines_optional_int_1024_return_none : List (Nat × Text) :=
  [(522, txt"//$ @optional_int_1024_return_none:"),
   (523, txt"//$ mov rax, rdi"),
   (524, txt"//$ mov byte ptr [rdi + 0x1000], 0x0"),
   (525, txt"//$ ret"),
   (527, txt"//$ @optional_int_1024_return_none {clang & libcpp}:"),
   (528, txt"//$ mov rax, rdi"),
   (529, txt"//$ mov byte ptr [rdi], 0x0"),
   (530, txt"//$ mov byte ptr [rdi + 0x1000], 0x0"),
   (531, txt"//$ ret"),
   (533, txt"//$ @optional_int_1024_return_none {gcc}:"),
   (534, txt"//$ mov byte ptr [rdi + 0x1000], 0x0"),
   (535, txt"//$ mov rax, rdi"),
   (536, txt"//$ ret"),
   (538, txt"//$ @optional_int_1024_return_none {msvc}:"),
   (539, txt"//$ mov byte ptr [rcx + 0x1000], 0x0"),
   (540, txt"//$ mov rax, rcx"),
   (541, txt"//$ ret"),
   (543, txt"//$ @optional_int_1024_return_none {clang-cl}:"),
   (544, txt"//$ mov rax, rcx"),
   (545, txt"//$ mov byte ptr [rcx + 0x1000], 0x0"),
   (546, txt"//$ ret")]

/-- the sections of `optional_int_1024_return_none` -/
def secs_optional_int_1024_return_none : List Section :=
  [⟨522, txt"optional_int_1024_return_none", none, [txt"mov rax, rdi", txt"mov byte ptr [rdi + 0x1000], 0x0", txt"ret"]⟩,
   ⟨527, txt"optional_int_1024_return_none", some (txt"clang & libcpp"), [txt"mov rax, rdi", txt"mov byte ptr [rdi], 0x0", txt"mov byte ptr [rdi + 0x1000], 0x0", txt"ret"]⟩,
   ⟨533, txt"optional_int_1024_return_none", some (txt"gcc"), [txt"mov byte ptr [rdi + 0x1000], 0x0", txt"mov rax, rdi", txt"ret"]⟩,
   ⟨538, txt"optional_int_1024_return_none", some (txt"msvc"), [txt"mov byte ptr [rcx + 0x1000], 0x0", txt"mov rax, rcx", txt"ret"]⟩,
   ⟨543, txt"optional_int_1024_return_none", some (txt"clang-cl"), [txt"mov rax, rcx", txt"mov byte ptr [rcx + 0x1000], 0x0", txt"ret"]⟩]

/-- test/codegen/sample.cpp 551-569 -/
def lines_option_float_1024_return_none : List (Nat × Text) :=
  [(551, txt"//$ @option_float_1024_return_none:"),
   (552, txt"//$ mov rax, rdi"),
   (553, txt"//$ mov dword ptr [rdi], 0xffbf69af"),
   (554, txt"//$ ret"),
   (556, txt"//$ @option_float_1024_return_none {gcc}:"),
   (557, txt"//$ mov dword ptr [rdi], 0xffbf69af"),
   (558, txt"//$ mov rax, rdi"),
   (559, txt"//$ ret"),
   (561, txt"//$ @option_float_1024_return_none {msvc}:"),
   (562, txt"//$ mov dword ptr [rcx], 0xffbf69af"),
   (563, txt"//$ mov rax, rcx"),
   (564, txt"//$ ret"),
   (566, txt"//$ @option_float_1024_return_none {clang-cl}:"),
   (567, txt"//$ mov rax, rcx"),
   (568, txt"//$ mov dword ptr [rcx], 0xffbf69af"),
   (569, txt"//$ ret")]

/-- the sections of `option_float_1024_return_none` -/
def secs_option_float_1024_return_none : List Section :=
  [⟨551, txt"option_float_1024_return_none", none, [txt"mov rax, rdi", txt"mov dword ptr [rdi], 0xffbf69af", txt"ret"]⟩,
   ⟨556, txt"option_float_1024_return_none", some (txt"gcc"), [txt"mov dword ptr [rdi], 0xffbf69af", txt"mov rax, rdi", txt"ret"]⟩,
   ⟨561, txt"option_float_1024_return_none", some (txt"msvc"), [txt"mov dword ptr [rcx], 0xffbf69af", txt"mov rax, rcx", txt"ret"]⟩,
   ⟨566, txt"option_float_1024_return_none", some (txt"clang-cl"), [txt"mov rax, rcx", txt"mov dword ptr [rcx], 0xffbf69af", txt"ret"]⟩]

/-- test/codegen/sample.cpp 574-590 -/
def lines_option_bool_return_none : List (Nat × Text) :=
  [(574, txt"//$ @option_bool_return_none:"),
   (575, txt"//$ mov al, 0x2"),
   (576, txt"//$ ret"),
   (578, txt"//$ @option_bool_return_none {gcc}:"),
   (579, txt"//$ mov eax, 0x2"),
   (580, txt"//$ ret"),
   (582, txt"//$ @option_bool_return_none {msvc}:"),
   (583, txt"//$ mov byte ptr [rcx], 0x2"),
   (584, txt"//$ mov rax, rcx"),
   (585, txt"//$ ret"),
   (587, txt"//$ @option_bool_return_none {clang-cl}:"),
   (588, txt"//$ mov rax, rcx"),
   (589, txt"//$ mov byte ptr [rcx], 0x2"),
   (590, txt"//$ ret")]

/-- the sections of `option_bool_return_none` -/
def secs_option_bool_return_none : List Section :=
  [⟨574, txt"option_bool_return_none", none, [txt"mov al, 0x2", txt"ret"]⟩,
   ⟨578, txt"option_bool_return_none", some (txt"gcc"), [txt"mov eax, 0x2", txt"ret"]⟩,
   ⟨582, txt"option_bool_return_none", some (txt"msvc"), [txt"mov byte ptr [rcx], 0x2", txt"mov rax, rcx", txt"ret"]⟩,
   ⟨587, txt"option_bool_return_none", some (txt"clang-cl"), [txt"mov rax, rcx", txt"mov byte ptr [rcx], 0x2", txt"ret"]⟩]

/-- test/codegen/sample.cpp 595-612 -/
def lines_optional_bool_return_none : List (Nat × Text) :=
  [(595, txt"//$ @optional_bool_return_none:"),
   (596, txt"//$ xor eax, eax"),
   (597, txt"//$ ret"),
   (599, txt"//$ @optional_bool_return_none {gcc & old-libstdcpp <12}:"),
   (600, txt"//$ xor eax, eax"),
   (601, txt"//$ mov ah, 0x0"),
   (602, txt"//$ ret"),
   (604, txt"//$ @optional_bool_return_none {msvc}:"),
   (605, txt"//$ mov byte ptr [rcx + 0x1], 0x0"),
   (606, txt"//$ mov rax, rcx"),
   (607, txt"//$ ret"),
   (609, txt"//$ @optional_bool_return_none {clang-cl}:"),
   (610, txt"//$ mov rax, rcx"),
   (611, txt"//$ mov byte ptr [rcx + 0x1], 0x0"),
   (612, txt"//$ ret")]

/-- the sections of `optional_bool_return_none` -/
def secs_optional_bool_return_none : List Section :=
  [⟨595, txt"optional_bool_return_none", none, [txt"xor eax, eax", txt"ret"]⟩,
   ⟨599, txt"optional_bool_return_none", some (txt"gcc & old-libstdcpp <12"), [txt"xor eax, eax", txt"mov ah, 0x0", txt"ret"]⟩,
   ⟨604, txt"optional_bool_return_none", some (txt"msvc"), [txt"mov byte ptr [rcx + 0x1], 0x0", txt"mov rax, rcx", txt"ret"]⟩,
   ⟨609, txt"optional_bool_return_none", some (txt"clang-cl"), [txt"mov rax, rcx", txt"mov byte ptr [rcx + 0x1], 0x0", txt"ret"]⟩]

/-- test/codegen/sample.cpp 617-629 -/
def lines_option_float_return_none : List (Nat × Text) :=
  [(617, txt"//$ @option_float_return_none:"),
   (618, txt"//$ mov eax, 0xffbf69af"),
   (619, txt"//$ ret"),
   (621, txt"//$ @option_float_return_none {msvc}:"),
   (622, txt"//$ mov dword ptr [rcx], 0xffbf69af"),
   (623, txt"//$ mov rax, rcx"),
   (624, txt"//$ ret"),
   (626, txt"//$ @option_float_return_none {clang-cl}:"),
   (627, txt"//$ mov rax, rcx"),
   (628, txt"//$ mov dword ptr [rcx], 0xffbf69af"),
   (629, txt"//$ ret")]

/-- the sections of `option_float_return_none` -/
def secs_option_float_return_none : List Section :=
  [⟨617, txt"option_float_return_none", none, [txt"mov eax, 0xffbf69af", txt"ret"]⟩,
   ⟨621, txt"option_float_return_none", some (txt"msvc"), [txt"mov dword ptr [rcx], 0xffbf69af", txt"mov rax, rcx", txt"ret"]⟩,
   ⟨626, txt"option_float_return_none", some (txt"clang-cl"), [txt"mov rax, rcx", txt"mov dword ptr [rcx], 0xffbf69af", txt"ret"]⟩]

/-- test/codegen/sample.cpp 634-651 -/
def lines_optional_float_return_none : List (Nat × Text) :=
  [(634, txt"//$ @optional_float_return_none:"),
   (635, txt"//$ xor eax, eax"),
   (636, txt"//$ ret"),
   (638, txt"//$ @optional_float_return_none {gcc}:"),
   (639, txt"//$ mov byte ptr [rsp - 0x4], 0x0"),
   (640, txt"//$ mov rax, qword ptr [rsp - 0x8]"),
   (641, txt"//$ ret"),
   (643, txt"//$ @optional_float_return_none {msvc}:"),
   (644, txt"//$ mov byte ptr [rcx + 0x4], 0x0"),
   (645, txt"//$ mov rax, rcx"),
   (646, txt"//$ ret"),
   (648, txt"//$ @optional_float_return_none {clang-cl}:"),
   (649, txt"//$ mov rax, rcx"),
   (650, txt"//$ mov byte ptr [rcx + 0x4], 0x0"),
   (651, txt"//$ ret")]

/-- the sections of `optional_float_return_none` -/
def secs_optional_float_return_none : List Section :=
  [⟨634, txt"optional_float_return_none", none, [txt"xor eax, eax", txt"ret"]⟩,
   ⟨638, txt"optional_float_return_none", some (txt"gcc"), [txt"mov byte ptr [rsp - 0x4], 0x0", txt"mov rax, qword ptr [rsp - 0x8]", txt"ret"]⟩,
   ⟨643, txt"optional_float_return_none", some (txt"msvc"), [txt"mov byte ptr [rcx + 0x4], 0x0", txt"mov rax, rcx", txt"ret"]⟩,
   ⟨648, txt"optional_float_return_none", some (txt"clang-cl"), [txt"mov rax, rcx", txt"mov byte ptr [rcx + 0x4], 0x0", txt"ret"]⟩]

/-- test/codegen/sample.cpp 656-670 -/
def lines_option_double_return_none : List (Nat × Text) :=
  [(656, txt"//$ @option_double_return_none:"),
   (657, txt"//$ movabs rax, -0x93860aa4f7671"),
   (658, txt"//$ ret"),
   (660, txt"//$ @option_double_return_none {msvc}:"),
   (661, txt"//$ movabs rax, -0x93860aa4f7671"),
   (662, txt"//$ mov qword ptr [rcx], rax"),
   (663, txt"//$ mov rax, rcx"),
   (664, txt"//$ ret"),
   (666, txt"//$ @option_double_return_none {clang-cl}:"),
   (667, txt"//$ mov rax, rcx"),
   (668, txt"//$ movabs rcx, -0x93860aa4f7671"),
   (669, txt"//$ mov qword ptr [rax], rcx"),
   (670, txt"//$ ret")]

/-- the sections of `option_double_return_none` -/
def secs_option_double_return_none : List Section :=
  [⟨656, txt"option_double_return_none", none, [txt"movabs rax, -0x93860aa4f7671", txt"ret"]⟩,
   ⟨660, txt"option_double_return_none", some (txt"msvc"), [txt"movabs rax, -0x93860aa4f7671", txt"mov qword ptr [rcx], rax", txt"mov rax, rcx", txt"ret"]⟩,
   ⟨666, txt"option_double_return_none", some (txt"clang-cl"), [txt"mov rax, rcx", txt"movabs rcx, -0x93860aa4f7671", txt"mov qword ptr [rax], rcx", txt"ret"]⟩]

/-- test/codegen/sample.cpp 675-698 -/
def lines_optional_double_return_none : List (Nat × Text) :=
  [(675, txt"//$ @optional_double_return_none:"),
   (676, txt"//$ xor eax, eax"),
   (677, txt"//$ ret"),
   (679, txt"//$ @optional_double_return_none {clang & libcpp}:"),
   (680, txt"//$ xor eax, eax"),
   (681, txt"//$ xor edx, edx"),
   (682, txt"//$ ret"),
   (684, txt"//$ @optional_double_return_none {gcc}:"),
   (685, txt"//$ mov byte ptr [rsp - 0x10], 0x0"),
   (686, txt"//$ movsd xmm0, qword ptr [rsp - 0x18]"),
   (687, txt"//$ mov rax, qword ptr [rsp - 0x10]"),
   (688, txt"//$ ret"),
   (690, txt"//$ @optional_double_return_none {msvc}:"),
   (691, txt"//$ mov byte ptr [rcx + 0x8], 0x0"),
   (692, txt"//$ mov rax, rcx"),
   (693, txt"//$ ret"),
   (695, txt"//$ @optional_double_return_none {clang-cl}:"),
   (696, txt"//$ mov rax, rcx"),
   (697, txt"//$ mov byte ptr [rcx + 0x8], 0x0"),
   (698, txt"//$ ret")]

/-- the sections of `optional_double_return_none` -/
def secs_optional_double_return_none : List Section :=
  [⟨675, txt"optional_double_return_none", none, [txt"xor eax, eax", txt"ret"]⟩,
   ⟨679, txt"optional_double_return_none", some (txt"clang & libcpp"), [txt"xor eax, eax", txt"xor edx, edx", txt"ret"]⟩,
   ⟨684, txt"optional_double_return_none", some (txt"gcc"), [txt"mov byte ptr [rsp - 0x10], 0x0", txt"movsd xmm0, qword ptr [rsp - 0x18]", txt"mov rax, qword ptr [rsp - 0x10]", txt"ret"]⟩,
   ⟨690, txt"optional_double_return_none", some (txt"msvc"), [txt"mov byte ptr [rcx + 0x8], 0x0", txt"mov rax, rcx", txt"ret"]⟩,
   ⟨695, txt"optional_double_return_none", some (txt"clang-cl"), [txt"mov rax, rcx", txt"mov byte ptr [rcx + 0x8], 0x0", txt"ret"]⟩]

/-- test/codegen/sample.cpp 703-711 -/
def lines_option_bool_has_value : List (Nat × Text) :=
  [(703, txt"//$ @option_bool_has_value:"),
   (704, txt"//$ cmp byte ptr [rdi], 0x2"),
   (705, txt"//$ setne al"),
   (706, txt"//$ ret"),
   (708, txt"//$ @option_bool_has_value {msvc,clang-cl}:"),
   (709, txt"//$ cmp byte ptr [rcx], 0x2"),
   (710, txt"//$ setne al"),
   (711, txt"//$ ret")]

/-- the sections of `option_bool_has_value` -/
def secs_option_bool_has_value : List Section :=
  [⟨703, txt"option_bool_has_value", none, [txt"cmp byte ptr [rdi], 0x2", txt"setne al", txt"ret"]⟩,
   ⟨708, txt"option_bool_has_value", some (txt"msvc,clang-cl"), [txt"cmp byte ptr [rcx], 0x2", txt"setne al", txt"ret"]⟩]

/-- test/codegen/sample.cpp 716-726 -/
def lines_optional_bool_has_value : List (Nat × Text) :=
  [(716, txt"//$ @optional_bool_has_value:"),
   (717, txt"//$ movzx eax, byte ptr [rdi + 0x1]"),
   (718, txt"//$ ret"),
   (720, txt"//$ @optional_bool_has_value {clang <15}:"),
   (721, txt"//$ mov al, byte ptr [rdi + 0x1]"),
   (722, txt"//$ ret"),
   (724, txt"//$ @optional_bool_has_value {msvc,clang-cl}:"),
   (725, txt"//$ movzx eax, byte ptr [rcx + 0x1]"),
   (726, txt"//$ ret")]

/-- the sections of `optional_bool_has_value` -/
def secs_optional_bool_has_value : List Section :=
  [⟨716, txt"optional_bool_has_value", none, [txt"movzx eax, byte ptr [rdi + 0x1]", txt"ret"]⟩,
   ⟨720, txt"optional_bool_has_value", some (txt"clang <15"), [txt"mov al, byte ptr [rdi + 0x1]", txt"ret"]⟩,
   ⟨724, txt"optional_bool_has_value", some (txt"msvc,clang-cl"), [txt"movzx eax, byte ptr [rcx + 0x1]", txt"ret"]⟩]

/-- test/codegen/sample.cpp 731-745 -/
def lines_option_float_has_value : List (Nat × Text) :=
  [(731, txt"//$ @option_float_has_value:"),
   (732, txt"//$ cmp dword ptr [rdi], 0xffbf69af"),
   (733, txt"//$ setne al"),
   (734, txt"//$ ret"),
   (736, txt"//$ @option_float_has_value {msvc}:"),
   (737, txt"//$ mov eax, dword ptr [rcx]"),
   (738, txt"//$ add eax, 0x409651"),
   (739, txt"//$ setne al"),
   (740, txt"//$ ret"),
   (742, txt"//$ @option_float_has_value {clang-cl}:"),
   (743, txt"//$ cmp dword ptr [rcx], 0xffbf69af"),
   (744, txt"//$ setne al"),
   (745, txt"//$ ret")]

/-- the sections of `option_float_has_value` -/
def secs_option_float_has_value : List Section :=
  [⟨731, txt"option_float_has_value", none, [txt"cmp dword ptr [rdi], 0xffbf69af", txt"setne al", txt"ret"]⟩,
   ⟨736, txt"option_float_has_value", some (txt"msvc"), [txt"mov eax, dword ptr [rcx]", txt"add eax, 0x409651", txt"setne al", txt"ret"]⟩,
   ⟨742, txt"option_float_has_value", some (txt"clang-cl"), [txt"cmp dword ptr [rcx], 0xffbf69af", txt"setne al", txt"ret"]⟩]

/-- test/codegen/sample.cpp 750-760 -/
def lines_optional_float_has_value : List (Nat × Text) :=
  [(750, txt"//$ @optional_float_has_value:"),
   (751, txt"//$ movzx eax, byte ptr [rdi + 0x4]"),
   (752, txt"//$ ret"),
   (754, txt"//$ @optional_float_has_value {clang <15}:"),
   (755, txt"//$ mov al, byte ptr [rdi + 0x4]"),
   (756, txt"//$ ret"),
   (758, txt"//$ @optional_float_has_value {msvc,clang-cl}:"),
   (759, txt"//$ movzx eax, byte ptr [rcx + 0x4]"),
   (760, txt"//$ ret")]

/-- the sections of `optional_float_has_value` -/
def secs_optional_float_has_value : List Section :=
  [⟨750, txt"optional_float_has_value", none, [txt"movzx eax, byte ptr [rdi + 0x4]", txt"ret"]⟩,
   ⟨754, txt"optional_float_has_value", some (txt"clang <15"), [txt"mov al, byte ptr [rdi + 0x4]", txt"ret"]⟩,
   ⟨758, txt"optional_float_has_value", some (txt"msvc,clang-cl"), [txt"movzx eax, byte ptr [rcx + 0x4]", txt"ret"]⟩]

/-- test/codegen/sample.cpp 765-782 -/
def lines_option_double_has_value : List (Nat × Text) :=
  [(765, txt"//$ @option_double_has_value:"),
   (766, txt"//$ movabs rax, -0x93860aa4f7671"),
   (767, txt"//$ cmp qword ptr [rdi], rax"),
   (768, txt"//$ setne al"),
   (769, txt"//$ ret"),
   (771, txt"//$ @option_double_has_value {msvc}:"),
   (772, txt"//$ mov rax, qword ptr [rcx]"),
   (773, txt"//$ movabs rcx, 0x93860aa4f7671"),
   (774, txt"//$ add rax, rcx"),
   (775, txt"//$ setne al"),
   (776, txt"//$ ret"),
   (778, txt"//$ @option_double_has_value {clang-cl}:"),
   (779, txt"//$ movabs rax, -0x93860aa4f7671"),
   (780, txt"//$ cmp qword ptr [rcx], rax"),
   (781, txt"//$ setne al"),
   (782, txt"//$ ret")]

/-- the sections of `option_double_has_value` -/
def secs_option_double_has_value : List Section :=
  [⟨765, txt"option_double_has_value", none, [txt"movabs rax, -0x93860aa4f7671", txt"cmp qword ptr [rdi], rax", txt"setne al", txt"ret"]⟩,
   ⟨771, txt"option_double_has_value", some (txt"msvc"), [txt"mov rax, qword ptr [rcx]", txt"movabs rcx, 0x93860aa4f7671", txt"add rax, rcx", txt"setne al", txt"ret"]⟩,
   ⟨778, txt"option_double_has_value", some (txt"clang-cl"), [txt"movabs rax, -0x93860aa4f7671", txt"cmp qword ptr [rcx], rax", txt"setne al", txt"ret"]⟩]

/-- test/codegen/sample.cpp 787-797 -/
def lines_optional_double_has_value : List (Nat × Text) :=
  [(787, txt"//$ @optional_double_has_value:"),
   (788, txt"//$ movzx eax, byte ptr [rdi + 0x8]"),
   (789, txt"//$ ret"),
   (791, txt"//$ @optional_double_has_value {clang <15}:"),
   (792, txt"//$ mov al, byte ptr [rdi + 0x8]"),
   (793, txt"//$ ret"),
   (795, txt"//$ @optional_double_has_value {msvc,clang-cl}:"),
   (796, txt"//$ movzx eax, byte ptr [rcx + 0x8]"),
   (797, txt"//$ ret")]

/-- the sections of `optional_double_has_value` -/
def secs_optional_double_has_value : List Section :=
  [⟨787, txt"optional_double_has_value", none, [txt"movzx eax, byte ptr [rdi + 0x8]", txt"ret"]⟩,
   ⟨791, txt"optional_double_has_value", some (txt"clang <15"), [txt"mov al, byte ptr [rdi + 0x8]", txt"ret"]⟩,
   ⟨795, txt"optional_double_has_value", some (txt"msvc,clang-cl"), [txt"movzx eax, byte ptr [rcx + 0x8]", txt"ret"]⟩]

/-- test/codegen/sample.cpp 802-818 -/
def lines_option_option_bool_has_value : List (Nat × Text) :=
  [(802, txt"//$ @option_option_bool_has_value:"),
   (803, txt"//$ cmp byte ptr [rdi], 0x3"),
   (804, txt"//$ setne al"),
   (805, txt"//$ ret"),
   (808, txt"//$ @option_option_bool_has_value {msvc}:"),
   (809, txt"//$ movzx eax, byte ptr [rcx]"),
   (810, txt"//$ sub al, 0x2"),
   (811, txt"//$ cmp al, 0x1"),
   (812, txt"//$ setne al"),
   (813, txt"//$ ret"),
   (815, txt"//$ @option_option_bool_has_value {clang-cl}:"),
   (816, txt"//$ cmp byte ptr [rcx], 0x3"),
   (817, txt"//$ setne al"),
   (818, txt"//$ ret")]

/-- the sections of `option_option_bool_has_value` -/
def secs_option_option_bool_has_value : List Section :=
  [⟨802, txt"option_option_bool_has_value", none, [txt"cmp byte ptr [rdi], 0x3", txt"setne al", txt"ret"]⟩,
   ⟨808, txt"option_option_bool_has_value", some (txt"msvc"), [txt"movzx eax, byte ptr [rcx]", txt"sub al, 0x2", txt"cmp al, 0x1", txt"setne al", txt"ret"]⟩,
   ⟨815, txt"option_option_bool_has_value", some (txt"clang-cl"), [txt"cmp byte ptr [rcx], 0x3", txt"setne al", txt"ret"]⟩]

/-- test/codegen/sample.cpp 823-880 -/
def lines_option_option_bool_nested_has_value : List (Nat × Text) :=
  [(823, txt"//$ @option_option_bool_nested_has_value:"),
   (824, txt"//$ movzx eax, byte ptr [rdi]"),
   (825, txt"//$ add al, -0x4"),
   (826, txt"//$ cmp al, -0x2"),
   (827, txt"//$ setb al"),
   (828, txt"//$ ret"),
   (830, txt"//$ @option_option_bool_nested_has_value {clang 11..<15}:"),
   (831, txt"//$ mov al, byte ptr [rdi]"),
   (832, txt"//$ and al, -0x2"),
   (833, txt"//$ cmp al, 0x2"),
   (834, txt"//$ setne al"),
   (835, txt"//$ ret"),
   (837, txt"//$ @option_option_bool_nested_has_value {clang <11}:"),
   (838, txt"//$ mov al, byte ptr [rdi]"),
   (839, txt"//$ or al, 0x1"),
   (840, txt"//$ cmp al, 0x3"),
   (841, txt"//$ setne al"),
   (842, txt"//$ ret"),
   (845, txt"//$ @option_option_bool_nested_has_value {gcc 13, gcc 14}:"),
   (846, txt"//$ movzx edx, byte ptr [rdi]"),
   (847, txt"//$ xor eax, eax"),
   (848, txt"//$ cmp dl, 0x3"),
   (849, txt"//$ je <L0>"),
   (850, txt"//$ cmp dl, 0x2"),
   (851, txt"//$ setne al"),
   (852, txt"//$ <L0>:"),
   (853, txt"//$ ret"),
   (855, txt"//$ @option_option_bool_nested_has_value {gcc <13}:"),
   (856, txt"//$ movzx eax, byte ptr [rdi]"),
   (857, txt"//$ sub eax, 0x2"),
   (858, txt"//$ cmp al, 0x1"),
   (859, txt"//$ seta al"),
   (860, txt"//$ ret"),
   (862, txt"//$ @option_option_bool_nested_has_value {msvc}:"),
   (863, txt"//$ movzx eax, byte ptr [rcx]"),
   (864, txt"//$ sub al, 0x2"),
   (865, txt"//$ cmp al, 0x1"),
   (866, txt"//$ je <L0>"),
   (867, txt"//$ test al, al"),
   (868, txt"//$ je <L0>"),
   (869, txt"//$ mov al, 0x1"),
   (870, txt"//$ ret"),
   (871, txt"//$ <L0>:"),
   (872, txt"//$ xor al, al"),
   (873, txt"//$ ret"),
   (875, txt"//$ @option_option_bool_nested_has_value {clang-cl}:"),
   (876, txt"//$ movzx eax, byte ptr [rcx]"),
   (877, txt"//$ add al, -0x4"),
   (878, txt"//$ cmp al, -0x2"),
   (879, txt"//$ setb al"),
   (880, txt"//$ ret")]

/-- the sections of `option_option_bool_nested_has_value` -/
def secs_option_option_bool_nested_has_value : List Section :=
  [⟨823, txt"option_option_bool_nested_has_value", none, [txt"movzx eax, byte ptr [rdi]", txt"add al, -0x4", txt"cmp al, -0x2", txt"setb al", txt"ret"]⟩,
   ⟨830, txt"option_option_bool_nested_has_value", some (txt"clang 11..<15"), [txt"mov al, byte ptr [rdi]", txt"and al, -0x2", txt"cmp al, 0x2", txt"setne al", txt"ret"]⟩,
   ⟨837, txt"option_option_bool_nested_has_value", some (txt"clang <11"), [txt"mov al, byte ptr [rdi]", txt"or al, 0x1", txt"cmp al, 0x3", txt"setne al", txt"ret"]⟩,
   ⟨845, txt"option_option_bool_nested_has_value", some (txt"gcc 13, gcc 14"), [txt"movzx edx, byte ptr [rdi]", txt"xor eax, eax", txt"cmp dl, 0x3", txt"je <L0>", txt"cmp dl, 0x2", txt"setne al", txt"<L0>:", txt"ret"]⟩,
   ⟨855, txt"option_option_bool_nested_has_value", some (txt"gcc <13"), [txt"movzx eax, byte ptr [rdi]", txt"sub eax, 0x2", txt"cmp al, 0x1", txt"seta al", txt"ret"]⟩,
   ⟨862, txt"option_option_bool_nested_has_value", some (txt"msvc"), [txt"movzx eax, byte ptr [rcx]", txt"sub al, 0x2", txt"cmp al, 0x1", txt"je <L0>", txt"test al, al", txt"je <L0>", txt"mov al, 0x1", txt"ret", txt"<L0>:", txt"xor al, al", txt"ret"]⟩,
   ⟨875, txt"option_option_bool_nested_has_value", some (txt"clang-cl"), [txt"movzx eax, byte ptr [rcx]", txt"add al, -0x4", txt"cmp al, -0x2", txt"setb al", txt"ret"]⟩]

/-- all lines of test/codegen/sample.cpp with `//$` -/
def sampleLines : List (Nat × Text) :=
  lines_option_int_assign ++ lines_option_int_assign_option ++ lines_option_int_return ++ lines_option_float_assign ++
  lines_optional_float_assign ++ lines_option_float_return ++ lines_optional_float_return ++ lines_option_double_return ++
  lines_optional_double_return ++ lines_option_enum_uint16_return ++ lines_optional_enum_uint16_return ++ lines_option_float_reset ++
  lines_optional_float_reset ++ lines_option_float_emplace ++ lines_optional_float_emplace ++ lines_option_bool_reset ++
  lines_optional_bool_reset ++ lines_option_int_return_default_ctor ++ lines_option_int_return_none ++ lines_optional_int_return_default_ctor ++
  lines_optional_int_return_none ++ lines_option_int64_return_none ++ lines_option_int_1024_return_none ++ lines_optional_int_1024_return_none ++
  lines_option_float_1024_return_none ++ lines_option_bool_return_none ++ lines_optional_bool_return_none ++ lines_option_float_return_none ++
  lines_optional_float_return_none ++ lines_option_double_return_none ++ lines_optional_double_return_none ++ lines_option_bool_has_value ++
  lines_optional_bool_has_value ++ lines_option_float_has_value ++ lines_optional_float_has_value ++ lines_option_double_has_value ++
  lines_optional_double_has_value ++ lines_option_option_bool_has_value ++ lines_option_option_bool_nested_has_value

/-- all sections of test/codegen/sample.cpp -/
def sampleSections : List Section :=
  secs_option_int_assign ++ secs_option_int_assign_option ++ secs_option_int_return ++ secs_option_float_assign ++
  secs_optional_float_assign ++ secs_option_float_return ++ secs_optional_float_return ++ secs_option_double_return ++
  secs_optional_double_return ++ secs_option_enum_uint16_return ++ secs_optional_enum_uint16_return ++ secs_option_float_reset ++
  secs_optional_float_reset ++ secs_option_float_emplace ++ secs_optional_float_emplace ++ secs_option_bool_reset ++
  secs_optional_bool_reset ++ secs_option_int_return_default_ctor ++ secs_option_int_return_none ++ secs_optional_int_return_default_ctor ++
  secs_optional_int_return_none ++ secs_option_int64_return_none ++ secs_option_int_1024_return_none ++ secs_optional_int_1024_return_none ++
  secs_option_float_1024_return_none ++ secs_option_bool_return_none ++ secs_optional_bool_return_none ++ secs_option_float_return_none ++
  secs_optional_float_return_none ++ secs_option_double_return_none ++ secs_optional_double_return_none ++ secs_option_bool_has_value ++
  secs_optional_bool_has_value ++ secs_option_float_has_value ++ secs_optional_float_has_value ++ secs_option_double_has_value ++
  secs_optional_double_has_value ++ secs_option_option_bool_has_value ++ secs_option_option_bool_nested_has_value

end Opt.Run
