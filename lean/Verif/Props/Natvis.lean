import Verif.Lemmas.Natvis

/-!
# C79: the debugger shows what is in an option
-/

namespace Opt.Natvis

/-- **C79.** For every option, of any nesting depth, whose type fits the file, what the debugger shows is honest: it says
whether there is a value, and shows that value — in every state a program can bring the option into, whatever is in the
memory behind it. -/
theorem C79_honest_partial {tg : Target} (hpw : tg.pw = 32 ∨ tg.pw = 64) {t : Cpp} (hf : Fits tg t)
    (hw : t ≠ .ref → (Ty.option (t.rep tg)).WF tg.pw) {bs : Bytes} (after : Bytes) (hl : Live tg t bs) (hn : NotOtherNaN tg t bs) :
    Honest tg t bs (view tg t (bs ++ after)) :=
  honest hpw t hf hw after hl hn

/-- In particular `[none]`, or a text that says there is no value, is shown exactly for the empty options. -/
theorem C79_none_partial {tg : Target} (hpw : tg.pw = 32 ∨ tg.pw = 64) {t : Cpp} (hf : Fits tg t)
    (hw : t ≠ .ref → (Ty.option (t.rep tg)).WF tg.pw) {bs : Bytes} (after : Bytes) (hl : Live tg t bs) (hn : NotOtherNaN tg t bs) :
    (view tg t (bs ++ after)).says = t.has tg bs := by
  have := honest hpw t hf hw after hl hn
  cases t <;> exact this.1

/-- the usual target -/
abbrev x64 : Target := ⟨64, true, true⟩

/-- `option<option<bool>>` holding an empty option, seen in Visual Studio: `{ [none] }` -/
example : Honest x64 (.option .bool) [2] (view x64 (.option .bool) ([2] ++ [0xCC])) :=
  C79_honest_partial (tg := x64) (t := .option .bool) (bs := [2]) (.inr rfl) ⟨rfl, by decide, trivial⟩
    (fun _ => ⟨⟨trivial, by decide, fun _ => by decide⟩, by decide, fun _ => by decide⟩)
    [0xCC] ⟨rfl, fun h => absurd h (by decide), fun _ => live_empty (t := .bool) (by simp) rfl (.inl (by decide)) (by decide)⟩ trivial

example : view x64 (.option .bool) [2, 0xCC] = .braces .none ∧ view x64 (.option .bool) [3] = .none ∧
    view x64 (.option .bool) [1] = .braces (.raw [1]) := by decide

/-- the file has entries for three options around `bool`; around the fourth the general one asks `has_value()` -/
example : view x64 (.option (.option (.option .bool))) [5] = .asked false (.braces (.braces (.raw [5]))) ∧
    view x64 (.option (.option (.option .bool))) [4] = .asked true .none ∧
    view x64 (.option (.option (.option .bool))) [0] = .asked true (.braces (.braces (.raw [0]))) := by decide

/-! ## What does not fit -/

/-- **Violation.** `option<option<double>>` with quiet NaNs (every 32-bit program): the empty option is shown as if it had
a value, whatever is behind it in memory.  The second comparison of that entry reads 32 bits instead of 64 (option.natvis 114). -/
theorem C79_violated_quiet (s : Bool) : ∃ bs, Live ⟨32, true, s⟩ (.option (.double 8)) bs ∧
    (Cpp.option (.double 8)).has ⟨32, true, s⟩ bs = false ∧
    ∀ after, view ⟨32, true, s⟩ (.option (.double 8)) (bs ++ after) = .braces (.raw bs) := by
  have hh : (Cpp.option (.double 8)).has ⟨32, true, s⟩ (leBytes 8 0xFFFBF26430BB3558) = false := by cases s <;> decide
  refine ⟨leBytes 8 0xFFFBF26430BB3558, live_empty (by simp) (by cases s <;> decide) (.inl (by cases s <;> decide)) hh, hh, fun after => ?_⟩
  · rw [show leBytes 8 0xFFFBF26430BB3558 = [0x58, 0x35, 0xBB, 0x30, 0x64, 0xF2, 0xFB, 0xFF] from by decide]
    have h64 : ld 64 ([0x58, 0x35, 0xBB, 0x30, 0x64, 0xF2, 0xFB, 0xFF] ++ after) 0 = 0xFFFBF26430BB3558#64 := by
      rw [ld_append (by decide)]; decide
    have h32 : ld 32 ([0x58, 0x35, 0xBB, 0x30, 0x64, 0xF2, 0xFB, 0xFF] ++ after) 0 = 0x30BB3558#32 := by
      rw [ld_append (by decide)]; decide
    have hr : rd ([0x58, 0x35, 0xBB, 0x30, 0x64, 0xF2, 0xFB, 0xFF] ++ after) 0 8 = [0x58, 0x35, 0xBB, 0x30, 0x64, 0xF2, 0xFB, 0xFF] := by
      rw [rd_append (by decide)]; decide
    cases s <;>
    · simp only [view, display, entryAt, Nat.zero_add, Nat.reduceLeDiff, if_true, Entry.none, Entry.some, h64, h32]
      rw [show Cpp.size _ (Cpp.double 8) = 8 from rfl, hr]
      decide

/-- **Violation.** A live `float` NaN — the first one the library reserves on the targets with the other kind of NaN — is
shown as `[none]`, on every target; the same for `double`. -/
theorem C79_violated_nan (s : Bool) :
    (∃ bs, Live ⟨64, true, s⟩ .float bs ∧ Cpp.float.has ⟨64, true, s⟩ bs = true ∧ view ⟨64, true, s⟩ .float bs = .none) ∧
    (∃ bs, Live ⟨64, true, s⟩ (.double 8) bs ∧ (Cpp.double 8).has ⟨64, true, s⟩ bs = true ∧ view ⟨64, true, s⟩ (.double 8) bs = .none) := by
  cases s
  · exact ⟨⟨leBytes 4 0xFFBF69AF, ⟨rfl, fun h => by revert h; decide, fun _ => ⟨rfl, by decide⟩⟩, by decide, by decide⟩,
      ⟨leBytes 8 0xFFF6C79F55B0898F, ⟨rfl, fun h => by revert h; decide, fun _ => ⟨rfl, by decide⟩⟩, by decide, by decide⟩⟩
  · exact ⟨⟨leBytes 4 0xFFC3EFB5, ⟨rfl, fun h => by revert h; decide, fun _ => ⟨rfl, by decide⟩⟩, by decide, by decide⟩,
      ⟨leBytes 8 0xFFFBF26430BB3557, ⟨rfl, fun h => by revert h; decide, fun _ => ⟨rfl, by decide⟩⟩, by decide, by decide⟩⟩

/-- **Violation.** In a 32-bit program no option of a pointer is ever shown as `[none]`, while it can be empty: the file
only knows the 64-bit pattern. -/
theorem C79_violated_pointer32 (b s : Bool) :
    (∀ m, (view ⟨32, b, s⟩ .ptr m).says = true) ∧
    ∃ bs, Live ⟨32, true, s⟩ .ptr bs ∧ Cpp.ptr.has ⟨32, true, s⟩ bs = false := by
  constructor
  · intro m
    show (if (ld 32 m 0).setWidth 64 = 0xF8E1B1825D5D6C67#64 then Shown.none else _).says = true
    rw [if_neg]
    · rfl
    · intro e
      have h := congrArg BitVec.toNat e
      rw [setWidth_toNat_le (by decide)] at h
      have := (ld 32 m 0).isLt
      rw [show BitVec.toNat 0xF8E1B1825D5D6C67#64 = 0xF8E1B1825D5D6C67 from rfl] at h
      omega
  · exact ⟨leBytes 4 0xFFFFFFC0, live_empty (by simp) (by cases s <;> decide) (.inl (by cases s <;> decide)) (by cases s <;> decide), by cases s <;> decide⟩

/-- **Violation.** The name of a member pointer type ends with `*` like that of a pointer, but its empty states are
others: an empty `option<int C::*>` is shown as a value, with the 4-byte member pointers of MSVC whatever follows in
memory, and with those of 8 bytes. -/
theorem C79_violated_memberPtr (s : Bool) :
    (∃ bs, Live ⟨64, true, s⟩ (.memberPtr 4 4) bs ∧ (Cpp.memberPtr 4 4).has ⟨64, true, s⟩ bs = false ∧
      ∀ after, after.length = 4 → view ⟨64, true, s⟩ (.memberPtr 4 4) (bs ++ after) = .raw bs) ∧
    (∃ bs, Live ⟨64, true, s⟩ (.memberPtr 8 8) bs ∧ (Cpp.memberPtr 8 8).has ⟨64, true, s⟩ bs = false ∧
      view ⟨64, true, s⟩ (.memberPtr 8 8) bs = .raw bs) := by
  refine ⟨⟨leBytes 4 0xFFFFFC17, live_empty (by simp) (by cases s <;> decide) (.inl (by cases s <;> decide)) (by cases s <;> decide),
      by cases s <;> decide, ?_⟩,
    ⟨leBytes 8 0xFFFFFFFFD3B2F9B2, live_empty (by simp) (by cases s <;> decide) (.inl (by cases s <;> decide)) (by cases s <;> decide),
      by cases s <;> decide, by cases s <;> decide⟩⟩
  intro after ha
  have hsz : (Cpp.memberPtr 4 4).size ⟨64, true, s⟩ = 4 := by cases s <;> decide
  rw [view_base rfl, display_general rfl, if_neg (by simp [isReference]), if_pos (by simp [isPointer]), if_neg, hsz, rd_append (by decide)]
  · rfl
  · intro e
    match after, ha with
    | [a, b, c, d], _ =>
      rw [show leBytes 4 0xFFFFFC17 = [0x17#8, 0xFC#8, 0xFF#8, 0xFF#8] from by decide] at e
      have h := congrArg (fun x : BitVec 64 => x.toNat % 256) e
      simp only [BitVec.setWidth_eq, ld, rd, List.cons_append, List.nil_append, List.drop_zero, Nat.reduceDiv,
        List.take_succ_cons, List.take_zero, leVal, BitVec.toNat_ofNat] at h
      omega

/-- **Violation.** In a 32-bit program what is shown for an `option<std::string>` depends on memory behind the option:
the same empty option is shown as `[none]` or as a value. -/
theorem C79_violated_string32 (dbg s : Bool) : ∃ bs, Live ⟨32, true, s⟩ (.string dbg) bs ∧
    (Cpp.string dbg).has ⟨32, true, s⟩ bs = false ∧
    view ⟨32, true, s⟩ (.string dbg) (bs ++ List.replicate 8 0) = .none ∧
    view ⟨32, true, s⟩ (.string dbg) (bs ++ List.replicate 8 1) = .raw bs := by
  refine ⟨List.replicate (stringSize 32 (.stl dbg)) 0, ?_, ?_, ?_, ?_⟩
  · cases dbg <;> cases s <;> exact live_empty (by simp) (by decide) (.inl (by decide)) (by decide)
  all_goals cases dbg <;> cases s <;> decide

theorem low_byte (x : Byte) (h : ld 64 (List.replicate 40 x ++ List.replicate 8 0) 32 = 0) : x = 0 := by
  have h := congrArg BitVec.toNat h
  rw [ld, show rd (List.replicate 40 x ++ List.replicate 8 0) 32 (64 / 8) = [x, x, x, x, x, x, x, x] from rfl,
    show BitVec.toNat (0 : BitVec 64) = 0 from rfl, BitVec.toNat_ofNat] at h
  have hx := x.isLt
  apply BitVec.eq_of_toNat_eq
  show x.toNat = 0
  simp only [leVal] at h
  omega

/-- **Violation.** Strings with an allocator that takes space have a flag, which the entry for strings does not look at: the empty
option is shown as whatever its storage contains.  Here `option<std::pmr::string>`, of 40 bytes and a flag. -/
theorem C79_violated_alloc (tg : Target) (x : Byte) (hx : x ≠ 0) :
    Live tg (.stringAlloc 40 8) (List.replicate 40 x ++ List.replicate 8 0) ∧
    (Cpp.stringAlloc 40 8).has tg (List.replicate 40 x ++ List.replicate 8 0) = false ∧
    view tg (.stringAlloc 40 8) (List.replicate 40 x ++ List.replicate 8 0) = .raw (List.replicate 40 x) := by
  have hf : ld 8 (List.replicate 40 x ++ List.replicate 8 0) 40 = 0 := rfl
  have hh : (Cpp.stringAlloc 40 8).has tg (List.replicate 40 x ++ List.replicate 8 0) = false := by
    rw [has_of_ne (by simp), Ty.hasValue, if_neg (by simp [Cpp.rep, Ty.traits, Ty.sizeTraits, noTraits])]
    show decide (ld 8 (List.replicate 40 x ++ List.replicate 8 0) 40 ≠ 0) = false
    rw [hf]; rfl
  refine ⟨live_empty (by simp) ?_ (.inr hf) hh, hh, ?_⟩
  · simp [Cpp.rep, Ty.size, Ty.sizeTraits, noTraits, roundTo, Ty.align]
  · rw [view_base rfl, display_special (by simp [entryAt]), show (Cpp.stringAlloc 40 8).size tg = 40 from rfl,
      show entryAt 0 (.stringAlloc 40 8) = .string 0 from rfl, rd_append (by simp), rd_all (by simp), Entry.none, if_pos rfl, if_pos rfl, if_neg]
    · rfl
    · rw [beq_iff_eq]
      intro e
      apply hx
      exact low_byte x e

/-- **Violation.** With `OPTION_USE_BUILTIN_TRAITS` off the options of the types known by name have a flag, which their
entries do not look at: an empty `option<bool>` is shown as a value. -/
theorem C79_violated_traits_off (pw : Nat) (s : Bool) :
    Live ⟨pw, false, s⟩ .bool [0, 0] ∧ Cpp.bool.has ⟨pw, false, s⟩ [0, 0] = false ∧ view ⟨pw, false, s⟩ .bool [0, 0] = .raw [0] :=
  ⟨live_empty (by simp) (by simp [Cpp.rep, Target.pick, Ty.size, Ty.sizeTraits, noTraits, roundTo, Ty.align]) (.inr rfl) rfl, rfl, rfl⟩

/-- **Violation.** An option of an option that has a flag is shown like the contained option, so that an option that contains an
empty option is shown as `[none]`.  Here `option<option<sentinel<int, -1>>>`. -/
theorem C79_violated_flag (s : Bool) : ∃ bs, Live ⟨64, true, s⟩ (.option (.sentinel 4 4 [[0xFF, 0xFF, 0xFF, 0xFF]])) bs ∧
    (Cpp.option (.sentinel 4 4 [[0xFF, 0xFF, 0xFF, 0xFF]])).has ⟨64, true, s⟩ bs = true ∧
    view ⟨64, true, s⟩ (.option (.sentinel 4 4 [[0xFF, 0xFF, 0xFF, 0xFF]])) bs = .none := by
  refine ⟨[0xFF, 0xFF, 0xFF, 0xFF, 1, 0, 0, 0], ⟨by cases s <;> decide, fun _ => .inr rfl, fun _ => ?_⟩, by cases s <;> decide, by cases s <;> decide⟩
  exact live_empty (t := .sentinel 4 4 [[0xFF, 0xFF, 0xFF, 0xFF]]) (by simp) (by cases s <;> decide) (.inl (by cases s <;> decide)) (by cases s <;> decide)

end Opt.Natvis

#print axioms Opt.Natvis.C79_honest_partial
#print axioms Opt.Natvis.C79_none_partial
#print axioms Opt.Natvis.C79_violated_quiet
#print axioms Opt.Natvis.C79_violated_nan
#print axioms Opt.Natvis.C79_violated_pointer32
#print axioms Opt.Natvis.C79_violated_memberPtr
#print axioms Opt.Natvis.C79_violated_string32
#print axioms Opt.Natvis.C79_violated_alloc
#print axioms Opt.Natvis.C79_violated_traits_off
#print axioms Opt.Natvis.C79_violated_flag
