import Verif.Lemmas.Codegen

/-!
# C85: the machine code expected by the tests implements the functions
-/

namespace Opt.Codegen

open Opt.X86

/-- `int` -/
abbrev int32 : Ty := .plain 4 4
/-- `std::int64_t` -/
abbrev int64 : Ty := .plain 8 8
/-- `std::array<int, 1024>` -/
abbrev ints : Ty := .array int32 1024
/-- `float`; on x86-64 the signaling patterns are used -/
abbrev float : Ty := .float32 true
/-- `double` -/
abbrev double : Ty := .float64 true 8
/-- `std::array<float, 1024>` -/
abbrev floats : Ty := .array float 1024
/-- `enum class enum_uint16 : std::uint16_t { a = 2 }` (sample.cpp 219) -/
abbrev enum16 : Ty := .enumReflect 16 [2]

/-- unfold the instructions -/
macro "x86" : tactic => `(tactic| simp only [arg0, State.step, State.get, State.put, State.addr, State.compute, State.holds, byte_at,
  setWidth_merge, low_merge_b, reduceCtorEq, if_true, if_false, Width.bytes, Bool.false_eq_true, merge_d, merge_q, imm_double, low_q, double_nat])

/-- all values of the byte at the argument -/
macro "bytes" s:term : tactic => `(tactic| (x86; generalize State.mem $s _ = x; revert x; decide +kernel))

/-! ## Changing an option -/

/-- **C85**: `*a = 2` -/
theorem C85_int_assign : ∀ l ∈ option_int_assign, Modifies int32 (fun P => P.assignValue 0 (.move (leBytes 4 2))) l := by
  intro l hl
  have hm : ∀ P w o, Sample int32 P → w.mem 0 = some o → o.bytes.length = objSize int32 →
      Gives int32 ((P.assignValue 0 (.move (leBytes 4 2))) w) w (puts [(0, leBytes 4 2), (4, leBytes 1 1)] o.bytes) := by
    intro P w o hP h hl
    exact sample_assign (by simp) hP h (by simp [Ty.traits, Ty.sizeTraits, noTraits])
  simp only [option_int_assign, List.mem_cons, List.not_mem_nil, or_false] at hl
  rcases hl with rfl | rfl
  all_goals exact modifies_of _ (by decide) (by decide) (fun s => ⟨_, rfl, rfl, rfl⟩) hm

/-- **C85**: `*a = 1.f` -/
theorem C85_float_assign : ∀ l ∈ option_float_assign, Modifies float (fun P => P.assignValue 0 (.move (leBytes 4 0x3f800000))) l := by
  intro l hl
  have hm : ∀ P w o, Sample float P → w.mem 0 = some o → o.bytes.length = objSize float →
      Gives float ((P.assignValue 0 (.move (leBytes 4 0x3f800000))) w) w (puts [(0, leBytes 4 0x3f800000)] o.bytes) := by
    intro P w o hP h hl
    exact sample_assign (by simp) hP h fun _ => by
      rw [wr_all (by rw [leBytes_length]; exact hl.symm)]
      decide +kernel
  simp only [option_float_assign, List.mem_cons, List.not_mem_nil, or_false] at hl
  rcases hl with rfl | rfl
  all_goals exact modifies_of _ (by decide) (by decide) (fun s => ⟨_, rfl, rfl, rfl⟩) hm

/-- **C85**: `a->reset()` for a `float` -/
theorem C85_float_reset : ∀ l ∈ option_float_reset, Modifies float (fun P => P.reset 0) l := by
  intro l hl
  have hm : ∀ P w o, Sample float P → w.mem 0 = some o → o.bytes.length = objSize float →
      Gives float ((P.reset 0) w) w (puts [(0, leBytes 4 0xffbf69af)] o.bytes) := by
    intro P w o hP h hl
    refine ⟨_, _, sample_reset hP (by decide) h (b := wr o.bytes 0 (leBytes 4 0xffbf69af)) rfl ?_, by simp [upd]; rfl, rfl,
      fun k hk => by simp [upd, hk]⟩
    rw [wr_all (by rw [leBytes_length]; exact hl.symm)]
    decide +kernel
  simp only [option_float_reset, List.mem_cons, List.not_mem_nil, or_false] at hl
  rcases hl with rfl | rfl
  all_goals exact modifies_of _ (by decide) (by decide) (fun s => ⟨_, rfl, rfl, rfl⟩) hm

/-- **C85**: `a->emplace(1.f)` -/
theorem C85_float_emplace : ∀ l ∈ option_float_emplace, Modifies float (fun P => P.emplace 0 (.move (leBytes 4 0x3f800000))) l := by
  intro l hl
  have hm : ∀ P w o, Sample float P → w.mem 0 = some o → o.bytes.length = objSize float →
      Gives float ((P.emplace 0 (.move (leBytes 4 0x3f800000))) w) w (puts [(0, leBytes 4 0x3f800000)] o.bytes) := by
    intro P w o hP h hl
    have h1 : wr (wr o.bytes 0 (leBytes 4 0xffbf69af)) 0 (leBytes 4 0x3f800000) = leBytes 4 0x3f800000 := by
      refine wr_all ?_
      rw [leBytes_length, wr_length (by rw [hl, leBytes_length]; decide)]
      exact hl.symm
    have h2 : puts [(0, leBytes 4 0x3f800000)] o.bytes = wr (wr o.bytes 0 (leBytes 4 0xffbf69af)) 0 (leBytes 4 0x3f800000) := by
      rw [h1]
      exact wr_all (by rw [leBytes_length]; exact hl.symm)
    rw [h2]
    refine sample_emplace hP (by decide) h rfl ?_ ?_
    · rw [wr_all (by rw [leBytes_length]; exact hl.symm)]
      decide +kernel
    · rw [h1]
      decide +kernel
  simp only [option_float_emplace, List.mem_cons, List.not_mem_nil, or_false] at hl
  rcases hl with rfl | rfl
  all_goals exact modifies_of _ (by decide) (by decide) (fun s => ⟨_, rfl, rfl, rfl⟩) hm

/-- **C85**: `a->reset()` for a `bool` -/
theorem C85_bool_reset : ∀ l ∈ option_bool_reset, Modifies .bool (fun P => P.reset 0) l := by
  intro l hl
  have hm : ∀ P w o, Sample .bool P → w.mem 0 = some o → o.bytes.length = objSize .bool →
      Gives .bool ((P.reset 0) w) w (puts [(0, leBytes 1 2)] o.bytes) := by
    intro P w o hP h hl
    refine ⟨_, _, sample_reset hP (by decide) h (b := wr o.bytes 0 (leBytes 1 2)) rfl ?_, by simp [upd]; rfl, rfl,
      fun k hk => by simp [upd, hk]⟩
    rw [wr_all (by rw [leBytes_length]; exact hl.symm)]
    decide +kernel
  simp only [option_bool_reset, List.mem_cons, List.not_mem_nil, or_false] at hl
  rcases hl with rfl | rfl
  all_goals exact modifies_of _ (by decide) (by decide) (fun s => ⟨_, rfl, rfl, rfl⟩) hm

/-! ## Returning an option -/

/-- **C85**: `return 2` -/
theorem C85_int_return : ∀ l ∈ option_int_return, Makes int32 (fun P => P.ctorValue 0 (.move (leBytes 4 2))) l := by
  intro l hl
  have hm : ∀ P w g, Sample int32 P → (∀ n, P.garbage 0 n = g) → g.length = objSize int32 → w.mem 0 = none →
      Gives int32 ((P.ctorValue 0 (.move (leBytes 4 2))) w) w (puts [(0, leBytes 4 2), (4, leBytes 1 1)] g) := by
    intro P w g hP hg hl h
    exact sample_value hP h hg (by simp [Ty.traits, Ty.sizeTraits, noTraits])
  simp only [option_int_return, List.mem_cons, List.not_mem_nil, or_false] at hl
  rcases hl with rfl | rfl | rfl | rfl
  · refine makes_of_regs _ (by decide +kernel) (fun s => ?_) hm
    refine ⟨_, List.replicate 8 0, rfl, rfl, rfl, ?_, fun _ _ => rfl⟩
    rw [returned_rax rfl (by decide)]
    x86
    decide +kernel
  · refine makes_of_stack 8 _ (by decide) (by decide) (by decide) (by decide) (fun s => ⟨_, rfl, rfl, ?_, ?_⟩) hm
    · have e0 : BitVec.ofInt 64 (-((8 : Nat) : Int)) + BitVec.ofNat 64 0 = BitVec.ofInt 64 (-8) := by decide
      have e4 : BitVec.ofInt 64 (-((8 : Nat) : Int)) + BitVec.ofNat 64 4 = BitVec.ofInt 64 (-4) := by decide
      simp only [State.step, State.put, State.addr, State.get, stores, List.foldl, BitVec.add_assoc, e0, e4]
      rfl
    · rw [returned_rax rfl (by decide)]
      exact value_read _ _ (by decide)
  · exact makes_of_mem _ (by decide) (by decide) (by decide) (fun s => ⟨_, rfl, rfl, rfl, rfl⟩) hm
  · exact makes_of_mem _ (by decide) (by decide) (by decide) (fun s => ⟨_, rfl, rfl, rfl, rfl⟩) hm

/-- **C85**: `return 1.f` -/
theorem C85_float_return : ∀ l ∈ option_float_return, Makes float (fun P => P.ctorValue 0 (.move (leBytes 4 0x3f800000))) l := by
  intro l hl
  have hm : ∀ P w g, Sample float P → (∀ n, P.garbage 0 n = g) → g.length = objSize float → w.mem 0 = none →
      Gives float ((P.ctorValue 0 (.move (leBytes 4 0x3f800000))) w) w (puts [(0, leBytes 4 0x3f800000)] g) := by
    intro P w g hP hg hl h
    exact sample_value hP h hg fun _ => by
      rw [wr_all (by rw [leBytes_length]; exact hl.symm)]
      decide +kernel
  simp only [option_float_return, List.mem_cons, List.not_mem_nil, or_false] at hl
  rcases hl with rfl | rfl | rfl
  · refine makes_of_regs _ (by decide +kernel) (fun s => ?_) hm
    refine ⟨_, List.replicate 4 0, rfl, rfl, rfl, ?_, fun _ _ => rfl⟩
    rw [returned_rax rfl (by decide)]
    x86
    decide +kernel
  · exact makes_of_mem _ (by decide) (by decide) (by decide) (fun s => ⟨_, rfl, rfl, rfl, rfl⟩) hm
  · exact makes_of_mem _ (by decide) (by decide) (by decide) (fun s => ⟨_, rfl, rfl, rfl, rfl⟩) hm

/-- **C85**: `return 1.` -/
theorem C85_double_return : ∀ l ∈ option_double_return, Makes double (fun P => P.ctorValue 0 (.move (leBytes 8 0x3ff0000000000000))) l := by
  intro l hl
  have hm : ∀ P w g, Sample double P → (∀ n, P.garbage 0 n = g) → g.length = objSize double → w.mem 0 = none →
      Gives double ((P.ctorValue 0 (.move (leBytes 8 0x3ff0000000000000))) w) w (puts [(0, leBytes 8 0x3ff0000000000000)] g) := by
    intro P w g hP hg hl h
    exact sample_value hP h hg fun _ => by
      rw [wr_all (by rw [leBytes_length]; exact hl.symm)]
      decide +kernel
  simp only [option_double_return, List.mem_cons, List.not_mem_nil, or_false] at hl
  rcases hl with rfl | rfl | rfl
  · refine makes_of_regs _ (by decide +kernel) (fun s => ?_) hm
    refine ⟨_, List.replicate 8 0, rfl, rfl, rfl, ?_, fun _ _ => rfl⟩
    rw [returned_rax rfl (by decide)]
    x86
    decide +kernel
  · exact makes_of_mem _ (by decide) (by decide) (by decide) (fun s => ⟨_, rfl, rfl, rfl, rfl⟩) hm
  · exact makes_of_mem _ (by decide) (by decide) (by decide) (fun s => ⟨_, rfl, rfl, rfl, rfl⟩) hm

theorem enum_size : objSize enum16 = 2 := by decide +kernel
theorem enum_level : (enum16.traits 64).maxLevel ≥ 1 := by decide +kernel

/-- **C85**: `return enum_uint16::a` -/
theorem C85_enum_uint16_return : ∀ l ∈ option_enum_uint16_return, Makes enum16 (fun P => P.ctorValue 0 (.move (leBytes 2 2))) l := by
  intro l hl
  have hm : ∀ P w g, Sample enum16 P → (∀ n, P.garbage 0 n = g) → g.length = objSize enum16 → w.mem 0 = none →
      Gives enum16 ((P.ctorValue 0 (.move (leBytes 2 2))) w) w (puts [(0, leBytes 2 2)] g) := by
    intro P w g hP hg hl h
    have e : puts [(0, leBytes 2 2)] g = enum16.storeValue 64 g (leBytes 2 2) := by
      rw [Ty.storeValue, if_pos enum_level]
      rfl
    rw [e]
    exact sample_value hP h hg fun _ => by
      rw [wr_all (by rw [leBytes_length, hl, enum_size])]
      decide +kernel
  simp only [option_enum_uint16_return, List.mem_cons, List.not_mem_nil, or_false] at hl
  rcases hl with rfl | rfl | rfl | rfl | rfl
  · refine makes_of_regs _ (by decide +kernel) (fun s => ?_) hm
    refine ⟨_, List.replicate 2 0, rfl, rfl, enum_size.symm, ?_, fun _ _ => rfl⟩
    rw [returned_rax enum_size (by decide), ← leBytes_low]
    simp only [State.step, State.put, State.get, if_true]
    refine Eq.trans (congrArg (fun v : BitVec 16 => leBytes 2 v.toNat) (setWidth_merge_w _ _)) ?_
    decide +kernel
  · refine makes_of_regs _ (by decide +kernel) (fun s => ?_) hm
    refine ⟨_, List.replicate 2 0, rfl, rfl, enum_size.symm, ?_, fun _ _ => rfl⟩
    rw [returned_rax enum_size (by decide)]
    x86
    decide +kernel
  · refine makes_of_mem _ (by decide +kernel) (by decide +kernel) (by decide +kernel)
      (fun s => ⟨_, rfl, rfl, by x86, ?_⟩) hm
    x86
    rfl
  · refine makes_of_mem _ (by decide +kernel) (by decide +kernel) (by decide +kernel)
      (fun s => ⟨_, rfl, rfl, by x86, ?_⟩) hm
    x86
    rfl
  · refine makes_of_mem _ (by decide +kernel) (by decide +kernel) (by decide +kernel)
      (fun s => ⟨_, rfl, rfl, by x86, ?_⟩) hm
    x86
    rfl

/-- **C85**: `return {}` for an `int` -/
theorem C85_int_return_default_ctor : ∀ l ∈ option_int_return_default_ctor, Makes int32 (fun P => P.ctorDefault 0) l := by
  intro l hl
  have hm : ∀ P w g, Sample int32 P → (∀ n, P.garbage 0 n = g) → g.length = objSize int32 → w.mem 0 = none →
      Gives int32 ((P.ctorDefault 0) w) w (puts [(4, leBytes 1 0)] g) := by
    intro P w g hP hg hl h
    exact ⟨_, _, sample_default_flag hP (by decide) h hg, by simp [upd]; rfl, rfl, fun k hk => by simp [upd, hk]⟩
  simp only [option_int_return_default_ctor, List.mem_cons, List.not_mem_nil, or_false] at hl
  rcases hl with rfl | rfl | rfl | rfl
  · refine makes_of_regs _ (by decide +kernel) (fun s => ?_) hm
    refine ⟨_, List.replicate 8 0, rfl, rfl, rfl, ?_, fun _ _ => rfl⟩
    rw [returned_rax rfl (by decide)]
    x86
    rw [BitVec.xor_self]
    decide +kernel
  · refine makes_of_stack 8 _ (by decide) (by decide) (by decide) (by decide) (fun s => ⟨_, rfl, rfl, ?_, ?_⟩) hm
    · have e0 : BitVec.ofInt 64 (-((8 : Nat) : Int)) + BitVec.ofNat 64 0 = BitVec.ofInt 64 (-8) := by decide
      have e4 : BitVec.ofInt 64 (-((8 : Nat) : Int)) + BitVec.ofNat 64 4 = BitVec.ofInt 64 (-4) := by decide
      simp only [State.step, State.put, State.addr, State.get, stores, List.foldl, BitVec.add_assoc, e0, e4]
      rfl
    · rw [returned_rax rfl (by decide)]
      exact value_read _ _ (by decide)
  · exact makes_of_mem _ (by decide) (by decide) (by decide) (fun s => ⟨_, rfl, rfl, rfl, rfl⟩) hm
  · exact makes_of_mem _ (by decide) (by decide) (by decide) (fun s => ⟨_, rfl, rfl, rfl, rfl⟩) hm

/-- **C85**: `return opt::none` for an `int` -/
theorem C85_int_return_none : ∀ l ∈ option_int_return_none, Makes int32 (fun P => P.ctorDefault 0) l := by
  intro l hl
  have hm : ∀ P w g, Sample int32 P → (∀ n, P.garbage 0 n = g) → g.length = objSize int32 → w.mem 0 = none →
      Gives int32 ((P.ctorDefault 0) w) w (puts [(4, leBytes 1 0)] g) := by
    intro P w g hP hg hl h
    exact ⟨_, _, sample_default_flag hP (by decide) h hg, by simp [upd]; rfl, rfl, fun k hk => by simp [upd, hk]⟩
  simp only [option_int_return_none, List.mem_cons, List.not_mem_nil, or_false] at hl
  rcases hl with rfl | rfl | rfl | rfl
  · refine makes_of_regs _ (by decide +kernel) (fun s => ?_) hm
    refine ⟨_, List.replicate 8 0, rfl, rfl, rfl, ?_, fun _ _ => rfl⟩
    rw [returned_rax rfl (by decide)]
    x86
    rw [BitVec.xor_self]
    decide +kernel
  · refine makes_of_stack 8 _ (by decide) (by decide) (by decide) (by decide) (fun s => ⟨_, rfl, rfl, ?_, ?_⟩) hm
    · have e0 : BitVec.ofInt 64 (-((8 : Nat) : Int)) + BitVec.ofNat 64 0 = BitVec.ofInt 64 (-8) := by decide
      have e4 : BitVec.ofInt 64 (-((8 : Nat) : Int)) + BitVec.ofNat 64 4 = BitVec.ofInt 64 (-4) := by decide
      simp only [State.step, State.put, State.addr, State.get, stores, List.foldl, BitVec.add_assoc, e0, e4]
      rfl
    · rw [returned_rax rfl (by decide)]
      exact value_read _ _ (by decide)
  · exact makes_of_mem _ (by decide) (by decide) (by decide) (fun s => ⟨_, rfl, rfl, rfl, rfl⟩) hm
  · exact makes_of_mem _ (by decide) (by decide) (by decide) (fun s => ⟨_, rfl, rfl, rfl, rfl⟩) hm

/-- **C85**: `return opt::none` for a `std::int64_t`: the bytes of the value are whatever `rax` holds -/
theorem C85_int64_return_none : ∀ l ∈ option_int64_return_none, Makes int64 (fun P => P.ctorDefault 0) l := by
  intro l hl
  have hm : ∀ P w g, Sample int64 P → (∀ n, P.garbage 0 n = g) → g.length = objSize int64 → w.mem 0 = none →
      Gives int64 ((P.ctorDefault 0) w) w (puts [(8, leBytes 1 0)] g) := by
    intro P w g hP hg hl h
    exact ⟨_, _, sample_default_flag hP (by decide) h hg, by simp [upd]; rfl, rfl, fun k hk => by simp [upd, hk]⟩
  simp only [option_int64_return_none, List.mem_cons, List.not_mem_nil, or_false] at hl
  rcases hl with rfl | rfl | rfl | rfl
  · refine makes_of_regs _ (by decide +kernel) (fun s => ?_) hm
    refine ⟨_, leBytes 8 (s.reg .rax).toNat ++ List.replicate 8 0, rfl, rfl, by simp [leBytes_length]; rfl, ?_, fun _ _ => rfl⟩
    rw [returned_both rfl]
    x86
    rw [BitVec.xor_self]
    simp only [puts, List.foldl, wr, leBytes_length]
    rw [List.take_append_of_le_length (by simp [leBytes_length]), List.take_of_length_le (by simp [leBytes_length]),
      List.append_assoc, List.drop_append, List.drop_of_length_le (by simp [leBytes_length]), leBytes_length]
    rfl
  · refine makes_of_stack 24 _ (by decide) (by decide) (by decide) (by decide) (fun s => ⟨_, rfl, rfl, ?_, ?_⟩) hm
    · have e : BitVec.ofInt 64 (-((24 : Nat) : Int)) + BitVec.ofNat 64 8 = BitVec.ofInt 64 (-16) := by decide
      simp only [State.step, State.put, State.addr, State.get, stores, List.foldl, BitVec.add_assoc, e]
      rfl
    · have e : BitVec.ofInt 64 (-((24 : Nat) : Int)) + BitVec.ofNat 64 8 = BitVec.ofInt 64 (-16) := by decide
      rw [returned_both rfl]
      have hT : objSize int64 = 8 + 8 := rfl
      rw [hT, ← read_add, BitVec.add_assoc, e]
      exact congr (congrArg _ (value_read _ _ (by decide))) (value_read _ _ (by decide))
  · exact makes_of_mem _ (by decide) (by decide) (by decide) (fun s => ⟨_, rfl, rfl, rfl, rfl⟩) hm
  · exact makes_of_mem _ (by decide) (by decide) (by decide) (fun s => ⟨_, rfl, rfl, rfl, rfl⟩) hm

theorem ints_size : objSize ints = 4100 := by decide +kernel
theorem floats_size : objSize floats = 4096 := by decide +kernel

/-- **C85**: `return opt::none` for an array of 1024 `int`: only the flag is written -/
theorem C85_int_1024_return_none : ∀ l ∈ option_int_1024_return_none, Makes ints (fun P => P.ctorDefault 0) l := by
  intro l hl
  have hm : ∀ P w g, Sample ints P → (∀ n, P.garbage 0 n = g) → g.length = objSize ints → w.mem 0 = none →
      Gives ints ((P.ctorDefault 0) w) w (puts [(4096, leBytes 1 0)] g) := by
    intro P w g hP hg hl h
    refine ⟨_, _, sample_default_flag hP (by decide +kernel) h hg, by simp [upd]; rfl, ?_, fun k hk => by simp [upd, hk]⟩
    have : ints.size 64 = 4096 := by decide +kernel
    simp only [this]
    rfl
  simp only [option_int_1024_return_none, List.mem_cons, List.not_mem_nil, or_false] at hl
  rcases hl with rfl | rfl | rfl | rfl
  · refine makes_of_mem _ (by decide +kernel) (by decide +kernel) (by decide +kernel)
      (fun s => ⟨_, rfl, rfl, by x86, ?_⟩) hm
    x86
    rfl
  · refine makes_of_mem _ (by decide +kernel) (by decide +kernel) (by decide +kernel)
      (fun s => ⟨_, rfl, rfl, by x86, ?_⟩) hm
    x86
    rfl
  · refine makes_of_mem _ (by decide +kernel) (by decide +kernel) (by decide +kernel)
      (fun s => ⟨_, rfl, rfl, by x86, ?_⟩) hm
    x86
    rfl
  · refine makes_of_mem _ (by decide +kernel) (by decide +kernel) (by decide +kernel)
      (fun s => ⟨_, rfl, rfl, by x86, ?_⟩) hm
    x86
    rfl

/-- **C85**: `return opt::none` for an array of 1024 `float`: only the first is written -/
theorem C85_float_1024_return_none : ∀ l ∈ option_float_1024_return_none, Makes floats (fun P => P.ctorDefault 0) l := by
  intro l hl
  have hm : ∀ P w g, Sample floats P → (∀ n, P.garbage 0 n = g) → g.length = objSize floats → w.mem 0 = none →
      Gives floats ((P.ctorDefault 0) w) w (puts [(0, leBytes 4 0xffbf69af)] g) := by
    intro P w g hP hg hl h
    rw [floats_size] at hl
    have h0 : (wr g 0 [0#8]).length = 4096 := by rw [wr_length (by rw [hl]; decide), hl]
    have h1 : wr (wr g 0 [0#8]) 0 (leBytes 4 0xffbf69af) = wr g 0 (leBytes 4 0xffbf69af) := by
      simp [wr, leBytes_length]
    have h2 : rd (wr g 0 (leBytes 4 0xffbf69af)) 0 4 = leBytes 4 0xffbf69af :=
      rd_wr_same rfl (by rw [hl]; decide)
    have h3 : (floats.traits 64).setLevel (wr g 0 [0]) 0 = .ok (wr g 0 (leBytes 4 0xffbf69af)) := by
      rw [← h1]
      have : (rd (wr g 0 [0#8]) 0 4).length = 4 := by simp [rd, h0]
      have : wr (rd (wr g 0 [0#8]) 0 4) 0 (leBytes 4 0xffbf69af) = leBytes 4 0xffbf69af := wr_all (by rw [this]; rfl)
      exact congrArg (fun b => Res.ok (wr (wr g 0 [0#8]) 0 b)) this
    refine ⟨_, _, sample_default hP (by decide +kernel) h hg h3 ?_, by simp [upd]; rfl, rfl, fun k hk => by simp [upd, hk]⟩
    have : floats.hasValue 64 (wr g 0 (leBytes 4 0xffbf69af)) = float.hasValue 64 (rd (wr g 0 (leBytes 4 0xffbf69af)) 0 4) := rfl
    rw [this, h2]
    decide +kernel
  simp only [option_float_1024_return_none, List.mem_cons, List.not_mem_nil, or_false] at hl
  rcases hl with rfl | rfl | rfl | rfl
  · refine makes_of_mem _ (by decide +kernel) (by decide +kernel) (by decide +kernel)
      (fun s => ⟨_, rfl, rfl, by x86, ?_⟩) hm
    x86
    rfl
  · refine makes_of_mem _ (by decide +kernel) (by decide +kernel) (by decide +kernel)
      (fun s => ⟨_, rfl, rfl, by x86, ?_⟩) hm
    x86
    rfl
  · refine makes_of_mem _ (by decide +kernel) (by decide +kernel) (by decide +kernel)
      (fun s => ⟨_, rfl, rfl, by x86, ?_⟩) hm
    x86
    rfl
  · refine makes_of_mem _ (by decide +kernel) (by decide +kernel) (by decide +kernel)
      (fun s => ⟨_, rfl, rfl, by x86, ?_⟩) hm
    x86
    rfl

/-- **C85**: `return opt::none` for a `bool` -/
theorem C85_bool_return_none : ∀ l ∈ option_bool_return_none, Makes .bool (fun P => P.ctorDefault 0) l := by
  intro l hl
  have hm : ∀ P w g, Sample .bool P → (∀ n, P.garbage 0 n = g) → g.length = objSize .bool → w.mem 0 = none →
      Gives .bool ((P.ctorDefault 0) w) w (puts [(0, leBytes 1 2)] g) := by
    intro P w g hP hg hl h
    have h1 : wr (wr g 0 [0#8]) 0 (leBytes 1 2) = leBytes 1 2 := by
      refine wr_all ?_
      rw [leBytes_length, wr_length (by rw [hl]; decide)]
      exact hl.symm
    refine ⟨_, _, sample_default hP (by decide) h hg (b := wr (wr g 0 [0#8]) 0 (leBytes 1 2)) rfl ?_, by simp [upd]; rfl, ?_,
      fun k hk => by simp [upd, hk]⟩
    · rw [h1]
      decide +kernel
    · rw [h1]
      exact take_congr (wr_all (by rw [leBytes_length]; exact hl.symm)).symm
  simp only [option_bool_return_none, List.mem_cons, List.not_mem_nil, or_false] at hl
  rcases hl with rfl | rfl | rfl | rfl
  · refine makes_of_regs _ (by decide +kernel) (fun s => ?_) hm
    refine ⟨_, List.replicate 1 0, rfl, rfl, rfl, ?_, fun _ _ => rfl⟩
    rw [returned_rax (n := 1) rfl (by decide), ← leBytes_low]
    simp only [State.step, State.put, State.get, if_true]
    refine Eq.trans (congrArg (fun v : BitVec 8 => leBytes 1 v.toNat) (setWidth_merge _ _)) ?_
    decide +kernel
  · refine makes_of_regs _ (by decide +kernel) (fun s => ?_) hm
    refine ⟨_, List.replicate 1 0, rfl, rfl, rfl, ?_, fun _ _ => rfl⟩
    rw [returned_rax rfl (by decide)]
    x86
    decide +kernel
  · exact makes_of_mem _ (by decide) (by decide) (by decide) (fun s => ⟨_, rfl, rfl, rfl, rfl⟩) hm
  · exact makes_of_mem _ (by decide) (by decide) (by decide) (fun s => ⟨_, rfl, rfl, rfl, rfl⟩) hm

/-- **C85**: `return opt::none` for a `float` -/
theorem C85_float_return_none : ∀ l ∈ option_float_return_none, Makes float (fun P => P.ctorDefault 0) l := by
  intro l hl
  have hm : ∀ P w g, Sample float P → (∀ n, P.garbage 0 n = g) → g.length = objSize float → w.mem 0 = none →
      Gives float ((P.ctorDefault 0) w) w (puts [(0, leBytes 4 0xffbf69af)] g) := by
    intro P w g hP hg hl h
    have h1 : wr (wr g 0 [0#8]) 0 (leBytes 4 0xffbf69af) = leBytes 4 0xffbf69af := by
      refine wr_all ?_
      rw [leBytes_length, wr_length (by rw [hl]; decide)]
      exact hl.symm
    refine ⟨_, _, sample_default hP (by decide) h hg (b := wr (wr g 0 [0#8]) 0 (leBytes 4 0xffbf69af)) rfl ?_, by simp [upd]; rfl, ?_,
      fun k hk => by simp [upd, hk]⟩
    · rw [h1]
      decide +kernel
    · rw [h1]
      exact take_congr (wr_all (by rw [leBytes_length]; exact hl.symm)).symm
  simp only [option_float_return_none, List.mem_cons, List.not_mem_nil, or_false] at hl
  rcases hl with rfl | rfl | rfl
  · refine makes_of_regs _ (by decide +kernel) (fun s => ?_) hm
    refine ⟨_, List.replicate 4 0, rfl, rfl, rfl, ?_, fun _ _ => rfl⟩
    rw [returned_rax rfl (by decide)]
    x86
    decide +kernel
  · exact makes_of_mem _ (by decide) (by decide) (by decide) (fun s => ⟨_, rfl, rfl, rfl, rfl⟩) hm
  · exact makes_of_mem _ (by decide) (by decide) (by decide) (fun s => ⟨_, rfl, rfl, rfl, rfl⟩) hm

/-- **C85**: `return opt::none` for a `double` -/
theorem C85_double_return_none : ∀ l ∈ option_double_return_none, Makes double (fun P => P.ctorDefault 0) l := by
  intro l hl
  have hm : ∀ P w g, Sample double P → (∀ n, P.garbage 0 n = g) → g.length = objSize double → w.mem 0 = none →
      Gives double ((P.ctorDefault 0) w) w (puts [(0, leBytes 8 0xfff6c79f55b0898f)] g) := by
    intro P w g hP hg hl h
    have h1 : wr (wr g 0 [0#8]) 0 (leBytes 8 0xfff6c79f55b0898f) = leBytes 8 0xfff6c79f55b0898f := by
      refine wr_all ?_
      rw [leBytes_length, wr_length (by rw [hl]; decide)]
      exact hl.symm
    refine ⟨_, _, sample_default hP (by decide) h hg (b := wr (wr g 0 [0#8]) 0 (leBytes 8 0xfff6c79f55b0898f)) (double_level _) ?_, by simp [upd]; rfl, ?_,
      fun k hk => by simp [upd, hk]⟩
    · rw [h1]
      decide +kernel
    · rw [h1]
      exact take_congr (wr_all (by rw [leBytes_length]; exact hl.symm)).symm
  simp only [option_double_return_none, List.mem_cons, List.not_mem_nil, or_false] at hl
  rcases hl with rfl | rfl | rfl
  · refine makes_of_regs _ (by decide +kernel) (fun s => ?_) hm
    refine ⟨_, List.replicate 8 0, rfl, rfl, rfl, ?_, fun _ _ => rfl⟩
    rw [returned_rax rfl (by decide)]
    x86
    decide +kernel
  · refine makes_of_mem _ (by decide +kernel) (by decide +kernel) (by decide +kernel)
      (fun s => ⟨_, rfl, rfl, by x86, ?_⟩) hm
    x86
    rfl
  · refine makes_of_mem _ (by decide +kernel) (by decide +kernel) (by decide +kernel)
      (fun s => ⟨_, rfl, rfl, by x86, ?_⟩) hm
    x86
    rfl

/-! ## Asking an option -/

/-- `a->has_value() && (*a)->has_value()` (sample.cpp 882): `operator->` checks (option.hpp 3095-3104), the inner option is the value -/
def nestedHasValue (P : Prog Bytes) : M World Bool := do
  let h ← P.hasValue 0
  if h then do
    P.getCheck 0
    let o ← Prog.obj 0
    pure (Ty.bool.hasValue 64 (P.payload 0 o))
  else pure false

/-- all values of a byte -/
theorem nested_byte : ∀ x : Byte, (Ty.option .bool).hasValue 64 [x] = decide (x ≠ 3) ∧
    ((Ty.option .bool).hasValue 64 [x] && Ty.bool.hasValue 64 [x]) = decide (x ≠ 2 ∧ x ≠ 3) ∧ Ty.bool.hasValue 64 [x] = decide (x ≠ 2) := by
  decide +kernel

/-- **C85**: `a->has_value()` for a `bool` -/
theorem C85_bool_has_value : ∀ l ∈ option_bool_has_value, Asks .bool (fun P => P.hasValue 0) l := by
  intro l hl
  have hop : ∀ P w o x, Sample .bool P → w.mem 0 = some o → o.bytes = [x] → (fun P => P.hasValue 0) P w = .ok (decide (x ≠ 2)) w := by
    intro P w o x hP h hx
    show P.hasValue 0 w = _
    rw [sample_hasValue hP (by decide) h, hx, (nested_byte x).2.2]
  simp only [option_bool_has_value, List.mem_cons, List.not_mem_nil, or_false] at hl
  rcases hl with rfl | rfl
  · refine asks_byte (fun x => decide (x ≠ 2)) rfl hop fun s => ⟨_, rfl, rfl, rfl, ?_⟩
    bytes s
  · refine asks_byte (fun x => decide (x ≠ 2)) rfl hop fun s => ⟨_, rfl, rfl, rfl, ?_⟩
    bytes s

/-- **C85**: `a->has_value()` for an `option<bool>` -/
theorem C85_option_bool_has_value : ∀ l ∈ option_option_bool_has_value, Asks (.option .bool) (fun P => P.hasValue 0) l := by
  intro l hl
  have hop : ∀ P w o x, Sample (.option .bool) P → w.mem 0 = some o → o.bytes = [x] → (fun P => P.hasValue 0) P w = .ok (decide (x ≠ 3)) w := by
    intro P w o x hP h hx
    show P.hasValue 0 w = _
    rw [sample_hasValue hP (by decide) h, hx, (nested_byte x).1]
  simp only [option_option_bool_has_value, List.mem_cons, List.not_mem_nil, or_false] at hl
  rcases hl with rfl | rfl | rfl
  · refine asks_byte (fun x => decide (x ≠ 3)) rfl hop fun s => ⟨_, rfl, rfl, rfl, ?_⟩
    bytes s
  · refine asks_byte (fun x => decide (x ≠ 3)) rfl hop fun s => ⟨_, rfl, rfl, rfl, ?_⟩
    bytes s
  · refine asks_byte (fun x => decide (x ≠ 3)) rfl hop fun s => ⟨_, rfl, rfl, rfl, ?_⟩
    bytes s

/-- the answer to the question about the nested options -/
def Answers (code : List Instr) (win : Bool) (s : State) : Prop :=
  ∃ s', run code s = some s' ∧ s'.reg .rsp = s.reg .rsp ∧ s'.mem = s.mem ∧
    (s'.reg .rax).setWidth 8 = if decide (s.mem (arg0 win s) ≠ 2 ∧ s.mem (arg0 win s) ≠ 3) then 1#8 else 0#8

/-- sample.cpp 845-854, with a jump -/
theorem nested_gcc (s : State) : Answers [.movzx (.reg .rdx) (.mem .rdi 0), .alu .xor .d (.reg .rax) (.reg .rax), .alu .cmp .b (.reg .rdx) (.imm 0x3), .je 0, .alu .cmp .b (.reg .rdx) (.imm 0x2), .set .ne .rax, .label 0, .ret] false s := by
  obtain ⟨S, hS⟩ : ∃ S, S = ((s.step (.movzx (.reg .rdx) (.mem .rdi 0))).step (.alu .xor .d (.reg .rax) (.reg .rax))).step (.alu .cmp .b (.reg .rdx) (.imm 0x3)) := ⟨_, rfl⟩
  have h1 : S.reg .rsp = s.reg .rsp ∧ S.mem = s.mem := by subst hS; exact ⟨rfl, rfl⟩
  have hr : run [.movzx (.reg .rdx) (.mem .rdi 0), .alu .xor .d (.reg .rax) (.reg .rax), .alu .cmp .b (.reg .rdx) (.imm 0x3), .je 0, .alu .cmp .b (.reg .rdx) (.imm 0x2), .set .ne .rax, .label 0, .ret] s = exec [.alu .cmp .b (.reg .rdx) (.imm 0x2), .set .ne .rax, .label 0, .ret] (if S.zf then some 0 else none) S := by subst hS; rfl
  cases hz : S.zf with
  | true =>
    refine ⟨S, by rw [hr, hz]; rfl, h1.1, h1.2, ?_⟩
    subst hS
    revert hz
    x86
    rw [BitVec.xor_self]
    generalize s.mem _ = x
    revert x
    decide +kernel
  | false =>
    refine ⟨(S.step (.alu .cmp .b (.reg .rdx) (.imm 0x2))).step (.set .ne .rax), by rw [hr, hz]; rfl, h1.1, h1.2, ?_⟩
    subst hS
    revert hz
    bytes s

/-- sample.cpp 862-874, with two jumps -/
theorem nested_msvc (s : State) : Answers [.movzx (.reg .rax) (.mem .rcx 0), .alu .sub .b (.reg .rax) (.imm 0x2), .alu .cmp .b (.reg .rax) (.imm 0x1), .je 0, .alu .test .b (.reg .rax) (.reg .rax), .je 0, .mov .b (.reg .rax) (.imm 0x1), .ret, .label 0, .alu .xor .b (.reg .rax) (.reg .rax), .ret] true s := by
  obtain ⟨S, hS⟩ : ∃ S, S = ((s.step (.movzx (.reg .rax) (.mem .rcx 0))).step (.alu .sub .b (.reg .rax) (.imm 0x2))).step (.alu .cmp .b (.reg .rax) (.imm 0x1)) := ⟨_, rfl⟩
  have h1 : S.reg .rsp = s.reg .rsp ∧ S.mem = s.mem := by subst hS; exact ⟨rfl, rfl⟩
  have hr : run [.movzx (.reg .rax) (.mem .rcx 0), .alu .sub .b (.reg .rax) (.imm 0x2), .alu .cmp .b (.reg .rax) (.imm 0x1), .je 0, .alu .test .b (.reg .rax) (.reg .rax), .je 0, .mov .b (.reg .rax) (.imm 0x1), .ret, .label 0, .alu .xor .b (.reg .rax) (.reg .rax), .ret] s = exec [.alu .test .b (.reg .rax) (.reg .rax), .je 0, .mov .b (.reg .rax) (.imm 0x1), .ret, .label 0, .alu .xor .b (.reg .rax) (.reg .rax), .ret] (if S.zf then some 0 else none) S := by subst hS; rfl
  cases hz : S.zf with
  | true =>
    refine ⟨S.step (.alu .xor .b (.reg .rax) (.reg .rax)), by rw [hr, hz]; rfl, h1.1, h1.2, ?_⟩
    subst hS
    revert hz
    x86
    rw [BitVec.xor_self]
    generalize s.mem _ = x
    revert x
    decide +kernel
  | false =>
    have hr2 : exec [.alu .test .b (.reg .rax) (.reg .rax), .je 0, .mov .b (.reg .rax) (.imm 0x1), .ret, .label 0, .alu .xor .b (.reg .rax) (.reg .rax), .ret] none S = exec [.mov .b (.reg .rax) (.imm 0x1), .ret, .label 0, .alu .xor .b (.reg .rax) (.reg .rax), .ret] (if (S.step (.alu .test .b (.reg .rax) (.reg .rax))).zf then some 0 else none) (S.step (.alu .test .b (.reg .rax) (.reg .rax))) := rfl
    cases hz2 : (S.step (.alu .test .b (.reg .rax) (.reg .rax))).zf with
    | true =>
      refine ⟨(S.step (.alu .test .b (.reg .rax) (.reg .rax))).step (.alu .xor .b (.reg .rax) (.reg .rax)), ?_, h1.1, h1.2, ?_⟩
      · rw [hr, hz]
        simp only [Bool.false_eq_true, if_false]
        rw [hr2, hz2]
        rfl
      subst hS
      revert hz hz2
      x86
      rw [BitVec.xor_self]
      generalize s.mem _ = x
      revert x
      decide +kernel
    | false =>
      refine ⟨(S.step (.alu .test .b (.reg .rax) (.reg .rax))).step (.mov .b (.reg .rax) (.imm 0x1)), ?_, h1.1, h1.2, ?_⟩
      · rw [hr, hz]
        simp only [Bool.false_eq_true, if_false]
        rw [hr2, hz2]
        rfl
      subst hS
      revert hz hz2
      bytes s

/-- **C85**: `a->has_value() && (*a)->has_value()` -/
theorem C85_option_bool_nested_has_value : ∀ l ∈ option_option_bool_nested_has_value, Asks (.option .bool) nestedHasValue l := by
  intro l hl
  have hop : ∀ P w o x, Sample (.option .bool) P → w.mem 0 = some o → o.bytes = [x] → nestedHasValue P w = .ok (decide (x ≠ 2 ∧ x ≠ 3)) w := by
    intro P w o x hP h hx
    rw [← (nested_byte x).2.1, ← hx]
    have hp : P.payload 0 o = o.bytes := by
      obtain ⟨sc, he, -⟩ := hP.elem 0
      rw [Prog.payload, he, hP.pw, hx]
      rfl
    cases hv : (Ty.option .bool).hasValue 64 o.bytes <;>
      simp [nestedHasValue, Prog.getCheck, bind, M.seq, sample_hasValue hP (by decide) h, hv, M.check, obj_ok h, pure, M.ret, hp]
  simp only [option_option_bool_nested_has_value, List.mem_cons, List.not_mem_nil, or_false] at hl
  rcases hl with rfl | rfl | rfl | rfl | rfl | rfl | rfl
  · refine asks_byte (fun x => decide (x ≠ 2 ∧ x ≠ 3)) rfl hop fun s => ⟨_, rfl, rfl, rfl, ?_⟩
    bytes s
  · refine asks_byte (fun x => decide (x ≠ 2 ∧ x ≠ 3)) rfl hop fun s => ⟨_, rfl, rfl, rfl, ?_⟩
    bytes s
  · refine asks_byte (fun x => decide (x ≠ 2 ∧ x ≠ 3)) rfl hop fun s => ⟨_, rfl, rfl, rfl, ?_⟩
    bytes s
  · exact asks_byte (fun x => decide (x ≠ 2 ∧ x ≠ 3)) rfl hop nested_gcc
  · refine asks_byte (fun x => decide (x ≠ 2 ∧ x ≠ 3)) rfl hop fun s => ⟨_, rfl, rfl, rfl, ?_⟩
    bytes s
  · exact asks_byte (fun x => decide (x ≠ 2 ∧ x ≠ 3)) rfl hop nested_msvc
  · refine asks_byte (fun x => decide (x ≠ 2 ∧ x ≠ 3)) rfl hop fun s => ⟨_, rfl, rfl, rfl, ?_⟩
    bytes s

/-- **C85**: `a->has_value()` for a `float` -/
theorem C85_float_has_value : ∀ l ∈ option_float_has_value, Asks float (fun P => P.hasValue 0) l := by
  intro l hl
  simp only [option_float_has_value, List.mem_cons, List.not_mem_nil, or_false] at hl
  rcases hl with rfl | rfl | rfl
  · refine asks_word 4 rfl (by decide) fun s => ⟨_, rfl, rfl, rfl, ?_⟩
    rw [hasValue_float]
    x86
    refine answer ?_
    rw [add_here, read_ld _ _ 4 (by decide)]
    exact cmp_float _
  · refine asks_word 4 rfl (by decide) fun s => ⟨_, rfl, rfl, rfl, ?_⟩
    rw [hasValue_float]
    x86
    refine answer ?_
    rw [add_here, read_ld _ _ 4 (by decide)]
    exact add_float _
  · refine asks_word 4 rfl (by decide) fun s => ⟨_, rfl, rfl, rfl, ?_⟩
    rw [hasValue_float]
    x86
    refine answer ?_
    rw [add_here, read_ld _ _ 4 (by decide)]
    exact cmp_float _

/-- **C85**: `a->has_value()` for a `double` -/
theorem C85_double_has_value : ∀ l ∈ option_double_has_value, Asks double (fun P => P.hasValue 0) l := by
  intro l hl
  simp only [option_double_has_value, List.mem_cons, List.not_mem_nil, or_false] at hl
  rcases hl with rfl | rfl | rfl
  · refine asks_word 8 rfl (by decide) fun s => ⟨_, rfl, rfl, rfl, ?_⟩
    rw [hasValue_double]
    x86
    refine answer ?_
    rw [add_here, read_ld _ _ 8 (by decide)]
    exact cmp_double _
  · refine asks_word 8 rfl (by decide) fun s => ⟨_, rfl, rfl, rfl, ?_⟩
    rw [hasValue_double]
    x86
    refine answer ?_
    rw [add_here, read_ld _ _ 8 (by decide)]
    exact add_double _
  · refine asks_word 8 rfl (by decide) fun s => ⟨_, rfl, rfl, rfl, ?_⟩
    rw [hasValue_double]
    x86
    refine answer ?_
    rw [add_here, read_ld _ _ 8 (by decide)]
    exact cmp_double _

/-! ## Copying -/

theorem size_int : objSize int32 = 8 := rfl

theorem meant_int : meant int32 = 5 := rfl

/-- the four bytes of a number that was loaded and stored -/
theorem bytes_d (m : Mem) (a : BitVec 64) :
    leBytes 4 (State.low .d (State.low .d (BitVec.ofNat 64 (leVal (X86.read m a 4))))).toNat = X86.read m a 4 := by
  have h := leVal_lt (X86.read m a 4)
  rw [read_length] at h
  refine Eq.trans ?_ (value_read m a (by decide : 4 ≤ 8))
  congr 1
  simp only [State.low, Width.bytes, BitVec.toNat_setWidth, BitVec.toNat_ofNat]
  omega

/-- the byte that was loaded and stored -/
theorem byte_b (m : Mem) (a : BitVec 64) : leBytes 1 (State.low .b (BitVec.ofNat 64 (leVal (X86.read m a 1)))).toNat = X86.read m a 1 ∧
    leBytes 1 (State.low .b (State.low .d (BitVec.ofNat 64 (leVal (X86.read m a 1))))).toNat = X86.read m a 1 := by
  have h := leVal_lt (X86.read m a 1)
  rw [read_length] at h
  constructor
  · refine Eq.trans ?_ (value_read m a (by decide : 1 ≤ 8))
    congr 1
    simp only [State.low, Width.bytes, BitVec.toNat_setWidth, BitVec.toNat_ofNat]
    omega
  · refine Eq.trans ?_ (value_read m a (by decide : 1 ≤ 8))
    congr 1
    simp only [State.low, Width.bytes, BitVec.toNat_setWidth, BitVec.toNat_ofNat]
    omega

theorem off0 : BitVec.ofInt 64 0 = BitVec.ofNat 64 0 := by decide
theorem off4 : BitVec.ofInt 64 4 = BitVec.ofNat 64 4 := by decide
theorem add0 (a : BitVec 64) : a + BitVec.ofNat 64 0 = a := BitVec.add_zero a

/-- one byte is not where the first four of an `option<int>` are, if the objects are the same or do not overlap -/
theorem apart {a b : BitVec 64} (h : a = b ∨ ∀ x, ¬ (Within a 8 x ∧ Within b 8 x)) :
    (∀ k, k < 4 → ¬ Within (a + BitVec.ofNat 64 4) 1 (b + BitVec.ofNat 64 k)) ∧
    (∀ k, k < 1 → ¬ Within (a + BitVec.ofNat 64 0) 4 (b + BitVec.ofNat 64 4 + BitVec.ofNat 64 k)) := by
  have inb : ∀ k, k < 8 → Within b 8 (b + BitVec.ofNat 64 k) := by
    intro k hk
    have := addr_sub b k 0 (by omega) (by omega)
    unfold Within
    rw [BitVec.add_zero] at this
    omega
  have ina : ∀ (y : BitVec 64) (d n : Nat), d + n ≤ 8 → Within (a + BitVec.ofNat 64 d) n y → Within a 8 y := by
    intro y d n hd hy
    unfold Within at *
    have := a.isLt
    have := y.isLt
    simp only [BitVec.toNat_sub, BitVec.toNat_add, BitVec.toNat_ofNat] at *
    omega
  constructor
  · intro k hk hw
    rcases h with rfl | h
    · unfold Within at hw
      rw [addr_sub' a k 4 (by omega) (by omega)] at hw
      omega
    · exact h _ ⟨ina _ 4 1 (by omega) hw, inb k (by omega)⟩
  · intro k hk hw
    obtain rfl : k = 0 := by omega
    rw [show b + BitVec.ofNat 64 4 + BitVec.ofNat 64 0 = b + BitVec.ofNat 64 4 from BitVec.add_zero _] at hw
    rcases h with rfl | h
    · unfold Within at hw
      rw [addr_sub a 4 0 (by omega) (by omega)] at hw
      omega
    · exact h _ ⟨ina _ 0 4 (by omega) hw, inb 4 (by omega)⟩

/-- the value and the flag, or the whole object, are copied -/
theorem copies_of {l : Listing} {n : Nat} (hn : 5 ≤ n)
    (hrun : ∀ s, (arg0 l.win s = arg1 l.win s ∨ ∀ x, ¬ (Within (arg0 l.win s) 8 x ∧ Within (arg1 l.win s) 8 x)) →
      ∃ s', run l.code s = some s' ∧ s'.reg .rsp = s.reg .rsp ∧ (∀ x, ¬ Within (arg0 l.win s) 8 x → s'.mem x = s.mem x) ∧
        (X86.read s'.mem (arg0 l.win s) 8).take n = (X86.read s.mem (arg1 l.win s) 8).take n) : Copies int32 l := by
  intro s hs
  obtain ⟨s', h1, h2, h3, h4⟩ := hrun s hs
  refine ⟨s', h1, ⟨h2, fun x hx _ => h3 x hx⟩, fun P w o j p hP ho _ hj hp _ => ?_⟩
  obtain ⟨w', o', g1, g2, g3, g4⟩ := sample_copy hP ho hj
  refine ⟨w', o', g1, g2, ?_, g4⟩
  rw [g3, hp, size_int, meant_int]
  have := congrArg (List.take 5) h4
  rw [List.take_take, List.take_take, Nat.min_eq_left hn] at this
  exact this.symm

/-- **C85**: `*a = *b`: the flag and the value are copied one after the other, or the whole object at once -/
theorem C85_int_assign_option : ∀ l ∈ option_int_assign_option, Copies int32 l := by
  intro l hl
  have halves : ∀ (m : Mem) (b : BitVec 64), (X86.read m b 8).take 5 = X86.read m b 4 ++ X86.read m (b + BitVec.ofNat 64 4) 1 := by
    intro m b
    rw [read_add]
    have : X86.read m b 8 = X86.read m b 5 ++ X86.read m (b + BitVec.ofNat 64 5) 3 := (read_add m b 5 3).symm
    rw [this, List.take_append_of_le_length (by rw [read_length]; omega), List.take_of_length_le (by rw [read_length]; omega)]
  have flagFirst : ∀ (m : Mem) (a b : BitVec 64), (a = b ∨ ∀ x, ¬ (Within a 8 x ∧ Within b 8 x)) →
      (X86.read (write (write m (a + BitVec.ofNat 64 4) (X86.read m (b + BitVec.ofNat 64 4) 1)) (a + BitVec.ofNat 64 0)
        (X86.read (write m (a + BitVec.ofNat 64 4) (X86.read m (b + BitVec.ofNat 64 4) 1)) b 4)) a 8).take 5 = (X86.read m b 8).take 5 := by
    intro m a b h
    rw [read_write_other m (by rw [read_length]; exact (apart h).1), halves m b,
      read_write _ _ (by rw [read_length]; decide) (by decide), read_write _ _ (by rw [read_length]; decide) (by decide)]
    simp [wr, read_length, List.take_append, List.drop_append, List.take_of_length_le, List.drop_of_length_le]
  have valueFirst : ∀ (m : Mem) (a b : BitVec 64), (a = b ∨ ∀ x, ¬ (Within a 8 x ∧ Within b 8 x)) →
      (X86.read (write (write m (a + BitVec.ofNat 64 0) (X86.read m b 4)) (a + BitVec.ofNat 64 4)
        (X86.read (write m (a + BitVec.ofNat 64 0) (X86.read m b 4)) (b + BitVec.ofNat 64 4) 1)) a 8).take 5 = (X86.read m b 8).take 5 := by
    intro m a b h
    rw [read_write_other m (by rw [read_length]; exact (apart h).2), halves m b,
      read_write _ _ (by rw [read_length]; decide) (by decide), read_write _ _ (by rw [read_length]; decide) (by decide)]
    simp [wr, read_length, List.take_append, List.drop_append, List.take_of_length_le, List.drop_of_length_le]
  simp only [option_int_assign_option, List.mem_cons, List.not_mem_nil, or_false] at hl
  rcases hl with rfl | rfl | rfl | rfl
  · refine copies_of (Nat.le_refl 5) fun s hs => ⟨_, rfl, rfl, ?_, ?_⟩
    · x86
      rw [off0, off4, (byte_b _ _).2, bytes_d]
      intro x hx
      rw [write_other _ (by rw [read_length]; decide) (by decide) hx, write_other _ (by rw [read_length]; decide) (by decide) hx]
    · x86
      rw [off0, off4, (byte_b _ _).2, bytes_d, add0 (s.reg .rsi)]
      exact flagFirst s.mem (s.reg .rdi) (s.reg .rsi) hs
  · refine copies_of (Nat.le_refl 5) fun s hs => ⟨_, rfl, rfl, ?_, ?_⟩
    · x86
      rw [off0, off4, (byte_b _ _).1, bytes_d]
      intro x hx
      rw [write_other _ (by rw [read_length]; decide) (by decide) hx, write_other _ (by rw [read_length]; decide) (by decide) hx]
    · x86
      rw [off0, off4, (byte_b _ _).1, bytes_d, add0 (s.reg .rsi)]
      exact flagFirst s.mem (s.reg .rdi) (s.reg .rsi) hs
  · refine copies_of (Nat.le_refl 5) fun s hs => ⟨_, rfl, rfl, ?_, ?_⟩
    · x86
      rw [off0, off4, (byte_b _ _).2, bytes_d]
      intro x hx
      rw [write_other _ (by rw [read_length]; decide) (by decide) hx, write_other _ (by rw [read_length]; decide) (by decide) hx]
    · x86
      rw [off0, off4, (byte_b _ _).2, bytes_d, add0 (s.reg .rsi)]
      exact valueFirst s.mem (s.reg .rdi) (s.reg .rsi) hs
  · refine copies_of (n := 8) (by decide) fun s _ => ⟨_, rfl, rfl, ?_, ?_⟩
    · x86
      rw [off0, value_read _ _ (by decide)]
      intro x hx
      exact write_other _ (by rw [read_length]; decide) (by decide) hx
    · x86
      rw [off0, value_read _ _ (by decide), read_write _ _ (by rw [read_length]; decide) (by decide), add0,
        wr_all (by rw [read_length, read_length])]
      rfl

/-! ## The hypotheses can be met -/

/-- a program with options of `T` only -/
def someProg (T : Ty) (scalar : Bool) (g : Bytes) : Prog Bytes where
  pw := 64
  cxx20 := true
  cls := fun _ => 0
  elemOf := fun _ => plainElem T scalar
  throwsAt := fun _ => false
  garbage := fun _ _ => g
  build := fun _ _ v _ => v
  partial_ := fun _ _ _ b => b
  dead := fun _ _ b => b
  moved := fun _ _ _ v => v
  selfMoved := fun _ _ v => v
  broken := fun _ _ v _ => v
  conv := fun _ _ v => v

theorem someProg_sample (T : Ty) (g : Bytes) : Sample T (someProg T true g) :=
  ⟨rfl, fun _ _ => rfl, fun _ => ⟨true, rfl, fun _ => rfl⟩, fun _ => rfl, fun _ _ _ _ => rfl⟩

example : Sample int32 (someProg int32 true []) ∧ Sample floats (someProg floats false []) :=
  ⟨someProg_sample _ _, rfl, fun _ _ => rfl, fun _ => ⟨false, rfl, fun h => absurd rfl (h _ _)⟩, fun _ => rfl, fun _ _ _ _ => rfl⟩

/-- memory with the byte 3 everywhere: an `option<option<bool>>` without a value -/
def threes : State := ⟨fun _ => 0x1000, fun _ => 3, false, true⟩

example : ∃ o : Obj, o.bytes = X86.read threes.mem (arg0 false threes) (objSize (.option .bool)) ∧
    (Ty.option .bool).hasValue 64 o.bytes = false := ⟨⟨[3], false⟩, by decide, by decide +kernel⟩

/-- the code and the model on the same bytes -/
example : ∃ s', run [.alu .cmp .b (.mem .rdi 0) (.imm 0x3), .set .ne .rax, .ret] threes = some s' ∧ (s'.reg .rax).setWidth 8 = 0#8 :=
  ⟨_, rfl, by decide +kernel⟩

/-- different objects that do not overlap, for `C85_int_assign_option` -/
example : ∃ s : State, ∀ x, ¬ (Within (arg0 false s) (objSize int32) x ∧ Within (arg1 false s) (objSize int32) x) := by
  refine ⟨⟨fun r => if r = .rsi then 8 else 0, fun _ => 0, false, false⟩, fun x => ?_⟩
  have h0 : (0 : BitVec 64).toNat = 0 := rfl
  have h8 : (8 : BitVec 64).toNat = 8 := rfl
  simp only [arg0, arg1, Within, Bool.false_eq_true, if_false, reduceCtorEq, if_true, size_int, BitVec.toNat_sub, h0, h8]
  have := x.isLt
  omega

#print axioms C85_int_assign
#print axioms C85_float_assign
#print axioms C85_float_reset
#print axioms C85_float_emplace
#print axioms C85_bool_reset
#print axioms C85_int_return
#print axioms C85_float_return
#print axioms C85_double_return
#print axioms C85_enum_uint16_return
#print axioms C85_int_return_default_ctor
#print axioms C85_int_return_none
#print axioms C85_int64_return_none
#print axioms C85_int_1024_return_none
#print axioms C85_float_1024_return_none
#print axioms C85_bool_return_none
#print axioms C85_float_return_none
#print axioms C85_double_return_none
#print axioms C85_bool_has_value
#print axioms C85_option_bool_has_value
#print axioms C85_option_bool_nested_has_value
#print axioms C85_float_has_value
#print axioms C85_double_has_value
#print axioms C85_int_assign_option

end Opt.Codegen
