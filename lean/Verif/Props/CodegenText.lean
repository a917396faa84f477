import Verif.Lemmas.CodegenText
import Verif.Props.CodegenRun

/-!
# C87: what conditions and disassemblies mean to the code generation test
-/

namespace Opt.Run

/-- **C87**: a condition holds exactly if one of its parts names only identifiers of the compiler and has a test that the version passes; it
can always be evaluated -/
theorem C87_condition (ss : List Sub) (hne : ss ≠ []) (h : ∀ s ∈ ss, s.Ok) (ids version : List Text) (hv : VerOk version) :
    (matchCondition ids (verText version) (condText ss) = some true ↔ ∃ s ∈ ss, s.Holds ids (padded (version.map value))) ∧
    matchCondition ids (verText version) (condText ss) ≠ none := by
  obtain ⟨b, hb, hh⟩ := matchCondition_text hne h (ids := ids) hv
  rw [hb]
  exact ⟨by simpa using hh, by simp⟩

/-- `f` is the last function with the name -/
def Defines (fs : List Fn) (name : Text) (f : Fn) : Prop :=
  ∃ a b, fs = a ++ f :: b ∧ f.name = name ∧ ∀ g ∈ b, g.name ≠ name

/-- **C87**: of the output of the disassembler the script sees the functions by name, each with exactly its code -/
theorem C87_disassembly (fs : List Fn) (h : ∀ f ∈ fs, f.Ok) (name : Text) (code : List Text) :
    lookup (parseDisasm none (fs.flatMap Fn.lines)) name = some code ↔ ∃ f, Defines fs name f ∧ f.code = code := by
  constructor
  · intro hl
    have hex : ∃ f ∈ fs, f.name = name := by
      refine Classical.byContradiction fun hn => ?_
      rw [lookup_fns_none h fun g hg e => hn ⟨g, hg, e⟩] at hl
      cases hl
    obtain ⟨a, f, b, rfl, hf, hb⟩ : ∃ a f b, fs = a ++ f :: b ∧ f.name = name ∧ ∀ g ∈ b, g.name ≠ name := by
      clear hl h
      induction fs with
      | nil => obtain ⟨f, hf, -⟩ := hex; cases hf
      | cons g gs ih =>
        by_cases hg : ∃ f ∈ gs, f.name = name
        · obtain ⟨a, f, b, rfl, h1, h2⟩ := ih hg
          exact ⟨g :: a, f, b, rfl, h1, h2⟩
        · obtain ⟨f, hf, hn⟩ := hex
          rcases List.mem_cons.1 hf with rfl | hf
          · exact ⟨[], f, gs, rfl, hn, fun x hx e => hg ⟨x, hx, e⟩⟩
          · exact absurd ⟨f, hf, hn⟩ hg
    refine ⟨f, ⟨a, b, rfl, hf, hb⟩, ?_⟩
    subst hf
    rw [lookup_fns h hb] at hl
    simpa using hl
  · rintro ⟨f, ⟨a, b, rfl, rfl, hb⟩, rfl⟩
    exact lookup_fns h hb

theorem strip_lower_version {v : List Text} (h : VerOk v) : strip (lower (verText v)) = verText v := by
  have hl : lower (verText v) = verText v := by
    refine (List.map_congr_left fun c hc => ?_).trans (List.map_id _)
    rcases verText_chars h c hc with hd | rfl
    · rw [if_neg]; rfl
      simp only [isDigit, Bool.and_eq_true, decide_eq_true_eq] at hd
      have e1 : 'A'.toNat = 65 := rfl
      have e2 : '9'.toNat = 57 := rfl
      simp only [Bool.and_eq_true, decide_eq_true_eq]
      omega
    · rfl
  rw [hl]
  refine strip_solid fun c hc => ?_
  rcases verText_chars h c hc with hd | rfl
  · exact digit_ws hd
  · decide

/-- **C87**: the test of the sample passes for an object file exactly if it has all functions and the code of each is the listing for the
compiler, instruction for instruction -/
theorem C87_object (c : Compiler) (source : List Text) (hs : IsSample source) (fs : List Fn) (hf : ∀ f ∈ fs, f.Ok) (version : List Text)
    (hv : VerOk version) (n : Nat) :
    run source (fs.flatMap Fn.lines) c.conds (verText version) = .passed n ↔
      n = 39 ∧ ∀ s ∈ sampleSections, ∃ f, Defines fs s.name f ∧ (Used sampleSections (idsOf c) (verText version) s → f.code = s.code) := by
  rw [C87_passes c source _ _ n hs, strip_lower_version hv, parseVersion_text hv]
  simp only [C87_disassembly fs hf, ne_eq, reduceCtorEq, not_false_eq_true, true_and]
  constructor
  · rintro ⟨hn, h⟩
    refine ⟨hn, fun s hm => ?_⟩
    obtain ⟨code, ⟨f, hd, rfl⟩, hu⟩ := h s hm
    exact ⟨f, hd, hu⟩
  · rintro ⟨hn, h⟩
    refine ⟨hn, fun s hm => ?_⟩
    obtain ⟨f, hd, hu⟩ := h s hm
    exact ⟨f.code, ⟨f, hd, rfl⟩, hu⟩

/-! ## Concrete cases -/

/-- `gcc >=11 ,clang & libcpp 13..<15` -/
def twoSubs : List Sub :=
  [⟨[], [⟨0, txt"gcc", 0⟩], .ge [txt"11"], txt" "⟩, ⟨[], [⟨0, txt"clang", 1⟩, ⟨1, txt"libcpp", 0⟩], .range [txt"13"] [txt"15"] true, []⟩]

theorem twoSubs_text : condText twoSubs = txt"gcc >=11 ,clang & libcpp 13..<15" := by decide

theorem word_ok {w : Word} (h : (w.id.all fun c => !isWs c && c != ',' && c != '&') && ((w.id.head?.map fun c => !opens c).getD false) = true) :
    w.Ok := by
  simp only [Bool.and_eq_true, List.all_eq_true, Bool.not_eq_true', bne_iff_ne] at h
  refine ⟨fun c hc => ⟨(h.1 c hc).1.1, (h.1 c hc).1.2, (h.1 c hc).2⟩, ?_⟩
  cases hh : w.id.head? with
  | none => rw [hh] at h; simp at h
  | some c => exact ⟨c, rfl, by have := h.2; rw [hh] at this; simpa using this⟩

theorem ver_ok {v : List Text} (h : (!v.isEmpty && v.all digitsB) = true) : VerOk v := by
  simp only [digitsB, Bool.and_eq_true, List.all_eq_true, Bool.not_eq_true'] at h
  exact ⟨by simpa using h.1, fun t ht => ⟨by simpa using (h.2 t ht).1, (h.2 t ht).2⟩⟩

theorem twoSubs_ok : ∀ s ∈ twoSubs, s.Ok := by
  simp only [twoSubs, List.forall_mem_cons, List.not_mem_nil, false_implies, implies_true, and_true]
  constructor
  · refine ⟨by simp, by simp [isWs], ?_, ver_ok (by decide), ⟨_, rfl, rfl⟩, ⟨_, rfl, rfl⟩⟩
    simp only [List.forall_mem_cons, List.not_mem_nil, false_implies, implies_true, and_true]
    exact word_ok (by decide)
  · refine ⟨by simp, by simp, ?_, ⟨ver_ok (by decide), ver_ok (by decide)⟩, ⟨_, rfl, rfl⟩, ⟨_, rfl, rfl⟩⟩
    simp only [List.forall_mem_cons, List.not_mem_nil, false_implies, implies_true, and_true]
    exact ⟨word_ok (by decide), word_ok (by decide)⟩

example : matchCondition [txt"clang", txt"libcpp"] (txt"14.0.6") (txt"gcc >=11 ,clang & libcpp 13..<15") = some true := by
  rw [← twoSubs_text]
  refine (C87_condition twoSubs (by decide) twoSubs_ok _ [txt"14", txt"0", txt"6"] (ver_ok (by decide))).1.2 ⟨_, by simp [twoSubs]; exact .inr rfl, ?_⟩
  exact ⟨by simp, by decide, by decide⟩

/-- the first listings for GCC 13 as functions of an object file -/
def gccFns : List Fn := (gcc13.take 12).map fun s => ⟨txt"int ", s.name, txt"opt::option<int>*",
  (false, ⟨txt"  ", txt"endbr64", []⟩) :: (s.code.map fun l => (true, ⟨['\t'], l, []⟩)) ++ [(false, ⟨[], [], []⟩)]⟩

theorem gccFns_ok : ∀ f ∈ gccFns, f.Ok := by
  have hname : ∀ s ∈ gcc13.take 12, s.name ≠ [] ∧ (s.name.contains '(' = false ∧ s.name.all (fun c => !isWs c) = true) ∧ s.code.all neatB = true := by
    decide +kernel
  intro f hf
  obtain ⟨s, hs, rfl⟩ := List.mem_map.1 hf
  obtain ⟨h1, ⟨h2, h3⟩, h4⟩ := hname s hs
  refine ⟨.inr ⟨' ', rfl, by decide⟩, by simp, ⟨h1, by simpa using h2, by simpa using h3⟩, by simp, ?_⟩
  intro x hx
  simp only [List.mem_append, List.mem_cons, List.mem_map, List.not_mem_nil, or_false] at hx
  rcases hx with (rfl | ⟨l, hl, rfl⟩) | rfl
  · exact ⟨⟨by simp [isWs], by simp, .inl (by simp)⟩, .inr ⟨⟨⟨'e', rfl, by decide⟩, '4', rfl, by decide⟩, .inr ⟨[], [], .inr (.inr rfl)⟩⟩⟩
  · exact ⟨⟨by simp [isWs], by simp, .inl (by simp)⟩, Neat.of_check (List.all_eq_true.1 h4 l hl)⟩
  · exact ⟨⟨by simp, by simp, .inr (by simp)⟩, .inl rfl⟩

example : ∃ f, Defines gccFns (txt"option_float_reset") f ∧ f.code = [txt"mov dword ptr [rdi], 0xffbf69af", txt"ret"] := by
  refine (C87_disassembly gccFns gccFns_ok _ _).1 ?_
  decide +kernel

-- an object file that lacks the other functions does not pass
example (n : Nat) :
    run (fill 1 sampleLines) (gccFns.flatMap Fn.lines) (Compiler.gcc false).conds (verText [txt"13", txt"2", txt"0"]) ≠ .passed n := by
  intro h
  obtain ⟨-, h⟩ := (C87_object _ _ isSample_fill _ gccFns_ok _ (ver_ok (by decide)) n).1 h
  obtain ⟨f, ⟨a, b, e, hn, -⟩, -⟩ := h _ (List.mem_of_getElem? (i := 142) rfl)
  have hm : f ∈ gccFns := by rw [e]; simp
  have : ∀ f ∈ gccFns, f.name ≠ txt"option_option_bool_nested_has_value" := by decide +kernel
  exact this f hm hn

end Opt.Run
