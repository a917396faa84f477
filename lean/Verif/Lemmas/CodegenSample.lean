import Verif.Lemmas.CodegenRun

/-!
# The listings of test/codegen/sample.cpp and the compilers
-/

namespace Opt.Run

open Opt.Codegen

/-! ## Versions -/

/-- the tests of versions in the file -/
def verTests : List Text :=
  [[], txt">=11", txt"<10", txt"10..<11", txt"<13.0", txt"<15", txt"<12.0", txt">19.29.30157.0", txt"<=19.29.30157.0", txt"14", txt"<13",
   txt"13", txt"<12", txt"<11", txt"11..<15"]

/-- a version that no test in the file tells from the given one -/
def repOf (v : List Nat) : List Nat :=
  match v with
  | a :: _ =>
    if a ≤ 9 then [9, 0, 0, 0] else if a ≤ 14 then [a, 0, 0, 0] else if lexLt [19, 29, 30157, 0] v then [20, 0, 0, 0] else [15, 0, 0, 0]
  | [] => []

def reps : List (List Nat) :=
  [[9, 0, 0, 0], [10, 0, 0, 0], [11, 0, 0, 0], [12, 0, 0, 0], [13, 0, 0, 0], [14, 0, 0, 0], [15, 0, 0, 0], [20, 0, 0, 0]]

theorem parseVersion_long {t : Text} {v : List Nat} (h : parseVersion t = some v) : ∃ a b c d r, v = a :: b :: c :: d :: r := by
  simp only [parseVersion, Option.map_eq_some_iff] at h
  obtain ⟨u, hu, rfl⟩ := h
  match u with
  | [] => exact ⟨_, _, _, _, _, rfl⟩
  | [_] => exact ⟨_, _, _, _, _, rfl⟩
  | [_, _] => exact ⟨_, _, _, _, _, rfl⟩
  | [_, _, _] => exact ⟨_, _, _, _, _, rfl⟩
  | _ :: _ :: _ :: _ :: _ => exact ⟨_, _, _, _, _, rfl⟩

theorem repOf_mem {a : Nat} {v : List Nat} : repOf (a :: v) ∈ reps := by
  simp only [repOf]
  split
  · decide
  · split
    · have : a = 10 ∨ a = 11 ∨ a = 12 ∨ a = 13 ∨ a = 14 := by omega
      rcases this with rfl | rfl | rfl | rfl | rfl <;> decide
    · split <;> decide

theorem lexLt_major {a b c d n : Nat} {r : List Nat} : lexLt (a :: b :: c :: d :: r) [n, 0, 0, 0] = decide (a < n) := by
  simp [lexLt]

theorem take_major {a n : Nat} {v : List Nat} : ((a :: v).take [n].length == [n]) = (a == n) := by
  simp

theorem lexLt_cut {a b c d : Nat} {r : List Nat} (h : lexLt [19, 29, 30157, 0] (a :: b :: c :: d :: r) = true) : 19 ≤ a := by
  simp [lexLt] at h
  omega

/-- the tests only see the representative -/
theorem checkVersion_rep {a b c d : Nat} {r : List Nat} {t : Text} (ht : t ∈ verTests) :
    checkVersion (a :: b :: c :: d :: r) t = checkVersion (repOf (a :: b :: c :: d :: r)) t := by
  have hw : ∃ w, repOf (a :: b :: c :: d :: r) = [w, 0, 0, 0] ∧ (∀ n, 10 ≤ n → n ≤ 15 → (a < n ↔ w < n)) ∧
      (∀ n, 10 ≤ n → n ≤ 14 → (a = n ↔ w = n)) ∧
      lexLt [19, 29, 30157, 0] (a :: b :: c :: d :: r) = lexLt [19, 29, 30157, 0] [w, 0, 0, 0] := by
    have hcut : ∀ w, w < 19 → lexLt [19, 29, 30157, 0] [w, 0, 0, 0] = false := by
      intro w hw
      simp [lexLt]
      omega
    have hl : a < 19 → lexLt [19, 29, 30157, 0] (a :: b :: c :: d :: r) = false := by
      intro hw
      cases h : lexLt [19, 29, 30157, 0] (a :: b :: c :: d :: r) with
      | false => rfl
      | true => have := lexLt_cut h; omega
    simp only [repOf]
    split
    · refine ⟨9, rfl, fun n _ _ => by omega, fun n _ _ => by omega, ?_⟩
      rw [hl (by omega), hcut _ (by omega)]
    · split
      · refine ⟨a, rfl, fun n _ _ => by omega, fun n _ _ => by omega, ?_⟩
        rw [hl (by omega), hcut _ (by omega)]
      · split
        · rename_i h
          refine ⟨20, rfl, fun n _ _ => by omega, fun n _ _ => by omega, ?_⟩
          rw [h]; decide
        · rename_i h
          refine ⟨15, rfl, fun n _ _ => by omega, fun n _ _ => by omega, ?_⟩
          rw [hcut _ (by omega)]; simpa using h
  obtain ⟨w, hw, hlt, heq, hcut⟩ := hw
  rw [hw]
  have lt : ∀ n, 10 ≤ n → n ≤ 15 → lexLt (a :: b :: c :: d :: r) [n, 0, 0, 0] = lexLt [w, 0, 0, 0] [n, 0, 0, 0] := by
    intro n h1 h2
    rw [lexLt_major, lexLt_major]
    exact decide_eq_decide.2 (hlt n h1 h2)
  have eq : ∀ n, 10 ≤ n → n ≤ 14 → (((a :: b :: c :: d :: r).take [n].length == [n]) = ([w, 0, 0, 0].take [n].length == [n])) := by
    intro n h1 h2
    rw [take_major, take_major, Bool.eq_iff_iff, beq_iff_eq, beq_iff_eq]
    exact heq n h1 h2
  have both : ∀ {x x' y y' : Bool}, x = x' → y = y' → some (!x && y) = some (!x' && y') := by rintro _ _ _ _ rfl rfl; rfl
  simp only [verTests, List.mem_cons, List.not_mem_nil, or_false] at ht
  rcases ht with rfl | rfl | rfl | rfl | rfl | rfl | rfl | rfl | rfl | rfl | rfl | rfl | rfl | rfl | rfl
  · rfl
  · exact congrArg (fun x => some !x) (lt 11 (by omega) (by omega))
  · exact congrArg some (lt 10 (by omega) (by omega))
  · exact both (lt 10 (by omega) (by omega)) (lt 11 (by omega) (by omega))
  · exact congrArg some (lt 13 (by omega) (by omega))
  · exact congrArg some (lt 15 (by omega) (by omega))
  · exact congrArg some (lt 12 (by omega) (by omega))
  · exact congrArg some hcut
  · exact congrArg (fun x => some !x) hcut
  · exact congrArg some (eq 14 (by omega) (by omega))
  · exact congrArg some (lt 13 (by omega) (by omega))
  · exact congrArg some (eq 13 (by omega) (by omega))
  · exact congrArg some (lt 12 (by omega) (by omega))
  · exact congrArg some (lt 11 (by omega) (by omega))
  · exact both (lt 11 (by omega) (by omega)) (lt 15 (by omega) (by omega))

/-- all tests of versions of a condition are among those of the file -/
def tame (c : Text) : Bool := (splitOn ',' c).all fun s => verTests.contains (findVersion (strip s)).2

theorem matchAny_rep {ids : List Text} {a b c d : Nat} {r : List Nat} : ∀ {ss : List Text},
    (ss.all fun s => verTests.contains (findVersion (strip s)).2) = true →
    matchAny ids (a :: b :: c :: d :: r) ss = matchAny ids (repOf (a :: b :: c :: d :: r)) ss
  | [], _ => rfl
  | s :: ss, h => by
    simp only [List.all_cons, Bool.and_eq_true] at h
    simp only [matchAny, matchOne]
    rw [checkVersion_rep (by simpa using h.1), matchAny_rep h.2]

/-! ## The functions of the file -/

/-- the sections of each function -/
def groups : List (Text × List Section) :=
  [(txt"option_int_assign", secs_option_int_assign),
   (txt"option_int_assign_option", secs_option_int_assign_option),
   (txt"option_int_return", secs_option_int_return),
   (txt"option_float_assign", secs_option_float_assign),
   (txt"optional_float_assign", secs_optional_float_assign),
   (txt"option_float_return", secs_option_float_return),
   (txt"optional_float_return", secs_optional_float_return),
   (txt"option_double_return", secs_option_double_return),
   (txt"optional_double_return", secs_optional_double_return),
   (txt"option_enum_uint16_return", secs_option_enum_uint16_return),
   (txt"optional_enum_uint16_return", secs_optional_enum_uint16_return),
   (txt"option_float_reset", secs_option_float_reset),
   (txt"optional_float_reset", secs_optional_float_reset),
   (txt"option_float_emplace", secs_option_float_emplace),
   (txt"optional_float_emplace", secs_optional_float_emplace),
   (txt"option_bool_reset", secs_option_bool_reset),
   (txt"optional_bool_reset", secs_optional_bool_reset),
   (txt"option_int_return_default_ctor", secs_option_int_return_default_ctor),
   (txt"option_int_return_none", secs_option_int_return_none),
   (txt"optional_int_return_default_ctor", secs_optional_int_return_default_ctor),
   (txt"optional_int_return_none", secs_optional_int_return_none),
   (txt"option_int64_return_none", secs_option_int64_return_none),
   (txt"option_int_1024_return_none", secs_option_int_1024_return_none),
   (txt"optional_int_1024_return_none", secs_optional_int_1024_return_none),
   (txt"option_float_1024_return_none", secs_option_float_1024_return_none),
   (txt"option_bool_return_none", secs_option_bool_return_none),
   (txt"optional_bool_return_none", secs_optional_bool_return_none),
   (txt"option_float_return_none", secs_option_float_return_none),
   (txt"optional_float_return_none", secs_optional_float_return_none),
   (txt"option_double_return_none", secs_option_double_return_none),
   (txt"optional_double_return_none", secs_optional_double_return_none),
   (txt"option_bool_has_value", secs_option_bool_has_value),
   (txt"optional_bool_has_value", secs_optional_bool_has_value),
   (txt"option_float_has_value", secs_option_float_has_value),
   (txt"optional_float_has_value", secs_optional_float_has_value),
   (txt"option_double_has_value", secs_option_double_has_value),
   (txt"optional_double_has_value", secs_optional_double_has_value),
   (txt"option_option_bool_has_value", secs_option_option_bool_has_value),
   (txt"option_option_bool_nested_has_value", secs_option_option_bool_nested_has_value)]

/-- the listings that are used, for a version given as numbers -/
def pick (g : List Section) (ids : List Text) (v : List Nat) : List Section :=
  g.filter fun s =>
    match s.conds with
    | some c => matchAny ids v (splitOn ',' c) == some true
    | none => g.all fun o =>
      match o.conds with
      | some c => matchAny ids v (splitOn ',' c) == some false
      | none => true

/-- no condition makes the script fail -/
def calm (g : List Section) (ids : List Text) (v : List Nat) : Bool :=
  g.all fun o =>
    match o.conds with
    | some c => (matchAny ids v (splitOn ',' c)).isSome
    | none => true

def compilers : List Compiler :=
  [.msvc, .clangCl, .clang .libcpp, .clang .oldLibstdcpp, .clang .libstdcpp, .gcc false, .gcc true, .icx, .unknown]

theorem mem_compilers (c : Compiler) : c ∈ compilers := by
  cases c with
  | clang l => cases l <;> decide
  | gcc b => cases b <;> decide
  | _ => decide

/-- the first argument of `match_condition` -/
def idsOf (c : Compiler) : List Text := splitOn ';' (lower c.conds)

theorem sample_parse : parseExpected none sampleLines = some sampleSections := by decide +kernel

theorem sample_groups : ∀ g ∈ groups, sampleSections.filter (fun s => s.name == g.1) = g.2 := by decide +kernel

theorem sample_names : ∀ s ∈ sampleSections, s.name ∈ groups.map (·.1) := by decide +kernel

theorem sample_tame : ∀ s ∈ sampleSections, ∀ c ∈ s.conds, tame c = true := by decide +kernel

theorem sample_enabled : ∀ s ∈ sampleSections, disabled s = false := by decide +kernel

theorem sample_pick : ∀ c ∈ compilers, ∀ v ∈ reps, ∀ g ∈ groups, (pick g.2 (idsOf c) v).length = 1 ∧ calm g.2 (idsOf c) v = true := by
  decide +kernel

/-- the listing of one function that is used -/
theorem used_iff {c : Compiler} {version : Text} {v : List Nat} {g : Text × List Section} (hv : parseVersion version = some v) (hg : g ∈ groups)
    {s : Section} (hs : s ∈ g.2) :
    Used sampleSections (idsOf c) version s ↔ s ∈ pick g.2 (idsOf c) (repOf v) := by
  have hgs := sample_groups g hg
  have hin : ∀ o, o ∈ g.2 ↔ o ∈ sampleSections ∧ o.name = g.1 := by
    intro o
    rw [← hgs]
    simp
  have hm : ∀ o ∈ g.2, ∀ t, o.conds = some t →
      matchCondition (idsOf c) version t = matchAny (idsOf c) (repOf v) (splitOn ',' t) := by
    intro o ho t ht
    obtain ⟨x1, x2, x3, x4, x5, rfl⟩ := parseVersion_long hv
    simp only [matchCondition, hv, Option.bind_some]
    exact matchAny_rep (sample_tame o ((hin o).1 ho).1 t ht)
  simp only [Used, pick, List.mem_filter, hs, true_and]
  cases hc : s.conds with
  | some t => simp only [hm s hs t hc, beq_iff_eq]
  | none =>
    simp only [List.all_eq_true]
    constructor
    · intro h o ho
      cases hoc : o.conds with
      | none => rfl
      | some t =>
        simp only [beq_iff_eq]
        rw [← hm o ho t hoc]
        exact h o ((hin o).1 ho).1 (((hin o).1 ho).2.trans ((hin s).1 hs).2.symm) t hoc
    · intro h o ho hn t ht
      have ho' : o ∈ g.2 := (hin o).2 ⟨ho, hn.trans ((hin s).1 hs).2⟩
      have := h o ho'
      rw [ht] at this
      rw [hm o ho' t ht]
      simpa using this

/-- the group of a section -/
theorem group_of {s : Section} (hs : s ∈ sampleSections) : ∃ g ∈ groups, s ∈ g.2 ∧ g.1 = s.name := by
  obtain ⟨g, hg, hn⟩ := List.mem_map.1 (sample_names s hs)
  refine ⟨g, hg, ?_, hn⟩
  rw [← sample_groups g hg]
  simp [hs, hn]

theorem mem_sample {g : Text × List Section} (hg : g ∈ groups) {s : Section} (hs : s ∈ g.2) : s ∈ sampleSections ∧ s.name = g.1 := by
  rw [← sample_groups g hg] at hs
  simpa using hs

theorem sample_calm {c : Compiler} {version : Text} {v : List Nat} (hv : parseVersion version = some v) :
    ∀ s ∈ sampleSections, ∀ t, s.conds = some t → matchCondition (idsOf c) version t ≠ none := by
  intro s hs t ht
  obtain ⟨g, hg, hsg, -⟩ := group_of hs
  obtain ⟨x1, x2, x3, x4, x5, rfl⟩ := parseVersion_long hv
  simp only [matchCondition, hv, Option.bind_some]
  rw [matchAny_rep (sample_tame s hs t ht)]
  have := (sample_pick c (mem_compilers c) _ (repOf_mem (a := x1) (v := x2 :: x3 :: x4 :: x5)) g hg).2
  simp only [calm, List.all_eq_true] at this
  have := this s hsg
  rw [ht] at this
  intro hn
  simp [hn] at this

/-- exactly one listing of each function is used -/
theorem sample_one {c : Compiler} {version : Text} {v : List Nat} (hv : parseVersion version = some v) {g : Text × List Section} (hg : g ∈ groups) :
    ∃ s, g.2.filter (fun s => decide (Used sampleSections (idsOf c) version s)) = [s] := by
  have hf : g.2.filter (fun s => decide (Used sampleSections (idsOf c) version s)) = pick g.2 (idsOf c) (repOf v) := by
    refine (List.filter_congr (q := fun s => decide (s ∈ pick g.2 (idsOf c) (repOf v))) fun s hs => ?_).trans ?_
    · exact decide_eq_decide.2 (used_iff hv hg hs)
    · have : ∀ (l : List Section) (q : Section → Bool), l.filter (fun s => decide (s ∈ l.filter q)) = l.filter q := by
        intro l q
        refine List.filter_congr fun s hs => ?_
        cases h : q s <;> simp [hs, h]
      exact this _ _
  obtain ⟨x1, x2, x3, x4, x5, rfl⟩ := parseVersion_long hv
  rw [hf]
  exact List.length_eq_one_iff.1 (sample_pick c (mem_compilers c) _ repOf_mem g hg).1

theorem sample_flat : sampleSections = groups.flatMap (·.2) := by decide +kernel

theorem sample_count {c : Compiler} {version : Text} {v : List Nat} (hv : parseVersion version = some v) :
    (sampleSections.filter fun s => decide (Used sampleSections (idsOf c) version s)).length = 39 := by
  have h : ∀ gs : List (Text × List Section), (∀ g ∈ gs, g ∈ groups) →
      ((gs.flatMap (·.2)).filter fun s => decide (Used sampleSections (idsOf c) version s)).length = gs.length := by
    intro gs
    induction gs with
    | nil => intro _; rfl
    | cons g gs ih =>
      intro h
      obtain ⟨s, hs⟩ := sample_one (c := c) hv (h g List.mem_cons_self)
      rw [List.flatMap_cons, List.filter_append, List.length_append, hs, ih fun g hg => h g (List.mem_cons_of_mem _ hg)]
      simp [Nat.add_comm]
  have := h groups fun _ h => h
  rw [← sample_flat] at this
  exact this

/-! ## The functions of C85 -/

/-- the listings as text, and as instructions -/
def tables : List (List Section × List Codegen.Listing) :=
  [(secs_option_int_assign, option_int_assign),
   (secs_option_int_assign_option, option_int_assign_option),
   (secs_option_int_return, option_int_return),
   (secs_option_float_assign, option_float_assign),
   (secs_option_float_return, option_float_return),
   (secs_option_double_return, option_double_return),
   (secs_option_enum_uint16_return, option_enum_uint16_return),
   (secs_option_float_reset, option_float_reset),
   (secs_option_float_emplace, option_float_emplace),
   (secs_option_bool_reset, option_bool_reset),
   (secs_option_int_return_default_ctor, option_int_return_default_ctor),
   (secs_option_int_return_none, option_int_return_none),
   (secs_option_int64_return_none, option_int64_return_none),
   (secs_option_int_1024_return_none, option_int_1024_return_none),
   (secs_option_float_1024_return_none, option_float_1024_return_none),
   (secs_option_bool_return_none, option_bool_return_none),
   (secs_option_float_return_none, option_float_return_none),
   (secs_option_double_return_none, option_double_return_none),
   (secs_option_bool_has_value, option_bool_has_value),
   (secs_option_float_has_value, option_float_has_value),
   (secs_option_double_has_value, option_double_has_value),
   (secs_option_option_bool_has_value, option_option_bool_has_value),
   (secs_option_option_bool_nested_has_value, option_option_bool_nested_has_value)]

/-- the text of the listings is that of the instructions -/
theorem sample_code : ∀ t ∈ tables, t.1.map (fun s => (s.line, codeOf s.code)) = t.2.map (fun l => (l.line, some l.code)) := by
  decide +kernel

/-- each compiler gets listings for its calling convention -/
theorem sample_win : ∀ c ∈ compilers, ∀ v ∈ reps, ∀ t ∈ tables, ∀ s ∈ pick t.1 (idsOf c) v,
    ∀ l ∈ t.2, l.line = s.line → l.win = c.win := by
  decide +kernel

end Opt.Run
