import Verif.Spec.CMake

/-!
# C95: the CMake variables and the installed package
-/

namespace Opt.CMake

open Run (Text)

/-- when an item comes out -/
theorem mem_configure {top : Bool} {m : Machine} {d : Defs} {x : Item} : x ∈ configure top m d ↔
    match x with
    | .library => True
    | .natvis => value top d .useNatvis = true
    | .natstepfilter => value top d .useNatstepfilter = true
    | .install => value top d .install = true
    | .test => value top d .install = false ∧ value top d .test = true
    | .libassert => value top d .install = false ∧ value top d .test = true ∧ value top d .useLibassert = true
    | .sanitizer => False
    | .optionExamples => False
    | .clangTidy => value top d .install = false ∧ value top d .test = true ∧ value top d .useClangTidy = true ∧
        (m.makefiles && m.network && m.python && m.clangTidy) = true
    | .examples => value top d .install = false ∧ value top d .examples = true
    | .checkExamples => value top d .install = false ∧ value top d .examples = true ∧ m.python = true
    | .benchmark => value top d .install = false ∧ value top d .benchmark = true ∧ m.python = true
    | .codegen => value top d .install = false ∧ value top d .codegenTest = true
    | .runCodegen => value top d .install = false ∧ value top d .codegenTest = true ∧ m.python = true ∧ m.objdump = true := by
  unfold configure testDir examplesDir benchmarkDir codegenDir
  dsimp only
  generalize (m.makefiles && m.network && m.python && m.clangTidy) = ct
  generalize m.python = py
  generalize m.objdump = ob
  generalize value top d .useNatvis = a1
  generalize value top d .useNatstepfilter = a2
  generalize value top d .install = a3
  generalize value top d .test = a4
  generalize value top d .useLibassert = a5
  generalize value top d .useClangTidy = a6
  generalize value top d .examples = a7
  generalize value top d .benchmark = a8
  generalize value top d .codegenTest = a9
  cases x <;> cases a3 <;> cases a1 <;> cases a2 <;> cases a4 <;> simp <;> revert ct py ob a5 a6 a7 a8 a9 <;> decide

/-- **C95** (partial).  For every machine, project and choice of variables: an item comes out if and only if its variable asks for it, as
docs/cmake_variables.md says.  Missing: the sanitizers, the target `option-examples`, the default of OPTION_USE_NATSTEPFILTER, and tests and examples together with
OPTION_INSTALL (see the violations). -/
theorem C95_documented_partial (top : Bool) (m : Machine) (d : Defs) (x : Item) (hs : x ≠ .sanitizer ∧ x ≠ .optionExamples)
    (hn : x = .natstepfilter → d .useNatstepfilter ≠ none) (hi : x = .test ∨ x = .examples → d .install ≠ some true) : AsDocumented top m d x := by
  intro v dflt h
  have ni : d .install ≠ some true → value top d .install = false := fun h => by
    unfold value
    cases hd : d .install with
    | none => rfl
    | some b => cases b <;> simp_all
  cases x <;> simp only [documented, Option.some.injEq, Prod.mk.injEq, reduceCtorEq] at h <;> obtain ⟨rfl, rfl⟩ := h
  case sanitizer => exact absurd rfl hs.1
  case optionExamples => exact absurd rfl hs.2
  case natstepfilter =>
    have h1 := hn rfl
    cases hd : d .useNatstepfilter with
    | none => exact absurd hd h1
    | some b => simp [mem_configure, value, hd, ofTest]
  case test => simp [mem_configure, ni (hi (.inl rfl)), ofTest]; rfl
  case examples => simp [mem_configure, ni (hi (.inr rfl)), ofTest]; rfl
  case libassert =>
    simp only [mem_configure, ofTest, true_implies]
    constructor
    · exact fun h => ⟨h.2.2, h.1, h.2.1⟩
    · exact fun h => ⟨h.2.1, h.2.2, h.1⟩
  all_goals simp [mem_configure, ofTest]; rfl

/-- nothing is defined -/
def nothing : Defs := fun _ => none

/-- defined as the documentation suggests to someone who wants to install -/
def toInstall : Defs := fun v => if v = .install then some true else none

/-- a usual machine -/
def usual : Machine := ⟨true, true, true, true, true⟩

example : AsDocumented true usual nothing .test ∧ Item.test ∈ configure true usual nothing ∧ Item.test ∉ configure false usual nothing :=
  ⟨C95_documented_partial _ _ _ _ (by decide) (by decide) (by decide), by decide, by decide⟩

/-- **C95** is violated: no choice of variables and no machine makes the files compile the tests with sanitizers, although USE_SANITIZER is on by
default. -/
theorem C95_sanitizer_violated : (∀ top m d, Item.sanitizer ∉ configure top m d) ∧ ∀ m, ¬ AsDocumented true m nothing .sanitizer := by
  refine ⟨fun _ _ _ h => mem_configure.1 h, fun m h => ?_⟩
  exact mem_configure.1 ((h _ _ rfl).2 ⟨rfl, fun _ => mem_configure.2 ⟨rfl, rfl⟩⟩)

/-- **C95** is violated: the target `option-examples` is never added -/
theorem C95_examples_violated : (∀ top m d, Item.optionExamples ∉ configure top m d) ∧ ∀ m, ¬ AsDocumented true m nothing .optionExamples :=
  ⟨fun _ _ _ h => mem_configure.1 h, fun _ h => mem_configure.1 ((h _ _ rfl).2 ⟨rfl, fun h => by cases h⟩)⟩

/-- **C95** is violated: OPTION_USE_NATSTEPFILTER is off by default, in every project -/
theorem C95_natstepfilter_violated (top : Bool) (m : Machine) (d : Defs) (h : d .useNatstepfilter = none) :
    ¬ AsDocumented top m d .natstepfilter := by
  intro hd
  have := (hd _ _ rfl).2 ⟨by rw [h]; rfl, fun h => by cases h⟩
  rw [mem_configure] at this
  simp [value, h, initial] at this

example : nothing .useNatstepfilter = none := rfl

/-- **C95** is violated: with OPTION_INSTALL there are no tests and examples, even if asked for -/
theorem C95_install_violated (top : Bool) (m : Machine) (d : Defs) (h : d .install = some true) :
    (d .test = some true → ¬ AsDocumented top m d .test) ∧ (d .examples = some true → ¬ AsDocumented top m d .examples) := by
  constructor <;> intro ht hd <;>
  · have := (hd _ _ rfl).2 ⟨by rw [ht]; rfl, fun h => by cases h⟩
    rw [mem_configure] at this
    simp [value, h] at this

example : (fun _ => some true : Defs) .install = some true := rfl

/-- **C95** is violated: a project that adds the library (`add_subdirectory`, FetchContent) and defines nothing compiles the library of the code
generation test with its own targets; exactly the definition OPTION_CODEGEN_TEST=FALSE or OPTION_INSTALL=TRUE prevents it. -/
theorem C95_client_violated (m : Machine) (d : Defs) (ht : d .test = none) (x : Item) :
    (x ∈ configure false m d ∧ inAll x = true) ↔ x = .codegen ∧ d .codegenTest ≠ some false ∧ d .install ≠ some true := by
  have e1 : value false d .install = false ↔ d .install ≠ some true := by
    unfold value; cases d .install with
    | none => simp [initial]
    | some b => cases b <;> simp
  have e2 : value false d .codegenTest = true ↔ d .codegenTest ≠ some false := by
    unfold value; cases d .codegenTest with
    | none => simp [initial]
    | some b => cases b <;> simp
  have e3 : value false d .test = false := by simp [value, ht, initial]
  cases x <;> simp [inAll, mem_configure, e1, e2, e3, and_comm]

example : Item.codegen ∈ configure false usual nothing ∧ inAll .codegen = true := by decide

/-! ## The installed package -/

theorem join_inj {p q d : Text} (h : join p d = join q d) : p = q := List.append_cancel_right h

theorem full_inj {p q d : Text} (h : full p d = full q d) : isAbsolute d = true ∨ p = q := by
  unfold full at h
  split at h
  · exact .inl ‹_›
  · exact .inr (join_inj h)

theorem last_join {p d : Text} (h : d ≠ []) : (join p d).getLast? = d.getLast? := by
  unfold join
  rw [List.getLast?_append]
  cases d with
  | nil => exact absurd rfl h
  | cons a t => simp [List.getLast?_cons]

theorem natvis_mem {dirs : Dirs} {a q : Text} :
    join a (txt"debugger/option.natvis") ∈ installed dirs q ↔ a = full q dirs.dataroot := by
  simp only [installed, List.mem_cons, List.not_mem_nil, or_false]
  constructor
  · rintro (h | h | h | h)
    · have := congrArg List.getLast? h
      rw [last_join (by decide), last_join (by decide)] at this
      exact absurd this (by decide)
    · have := congrArg List.getLast? h
      rw [last_join (by decide), last_join (by decide)] at this
      exact absurd this (by decide)
    · refine join_inj (d := txt"debugger/option.natvis") (h.trans ?_)
      simp [join]
    · have := congrArg List.getLast? h
      rw [last_join (by decide), last_join (by decide)] at this
      exact absurd this (by decide)
  · rintro rfl
    refine .inr (.inr (.inl ?_))
    simp [join]

theorem natstepfilter_mem {dirs : Dirs} {a q : Text} :
    join a (txt"debugger/option.natstepfilter") ∈ installed dirs q ↔ a = full q dirs.dataroot := by
  simp only [installed, List.mem_cons, List.not_mem_nil, or_false]
  constructor
  · rintro (h | h | h | h)
    · have := congrArg List.getLast? h
      rw [last_join (by decide), last_join (by decide)] at this
      exact absurd this (by decide)
    · have := congrArg List.getLast? h
      rw [last_join (by decide), last_join (by decide)] at this
      exact absurd this (by decide)
    · have := congrArg List.getLast? h
      rw [last_join (by decide), last_join (by decide)] at this
      exact absurd this (by decide)
    · refine join_inj (d := txt"debugger/option.natstepfilter") (h.trans ?_)
      simp [join]
  · rintro rfl
    refine .inr (.inr (.inr ?_))
    simp [join]

/-- **C95**: exactly when an installed package can be used.  The prefix at the installation must be the one of the configuration, unless the data
directory is absolute or the project that uses the package switches both debugger files off; and there must be a directory `include` under
the prefix. -/
theorem C95_package (dirs : Dirs) (p q : Text) (d : Defs) :
    Usable (installed dirs q) (findPackage dirs p q d) ↔
      DirThere (installed dirs q) (join q (txt"include")) ∧
      (isAbsolute dirs.dataroot = true ∨ p = q ∨ d .useNatvis = some false ∧ d .useNatstepfilter = some false) := by
  have hinc : join (full q dirs.includes) (txt"opt/option.hpp") ∈ installed dirs q := List.mem_cons_self ..
  have off : ∀ v, (d v).getD true = false ↔ d v = some false := fun v => by cases d v <;> simp
  unfold Usable
  constructor
  · rintro ⟨_, h1, h2⟩
    refine ⟨h1 _ (List.mem_cons_self ..), ?_⟩
    cases hv : (d .useNatvis).getD true with
    | true =>
      have := natvis_mem.1 (h2 (join (full p dirs.dataroot) (txt"debugger/option.natvis")) (by simp [findPackage, hv]))
      rcases full_inj this with h | h
      · exact .inl h
      · exact .inr (.inl h)
    | false =>
      cases hf : (d .useNatstepfilter).getD true with
      | true =>
        have := natstepfilter_mem.1 (h2 (join (full p dirs.dataroot) (txt"debugger/option.natstepfilter")) (by simp [findPackage, hf]))
        rcases full_inj this with h | h
        · exact .inl h
        · exact .inr (.inl h)
      | false => exact .inr (.inr ⟨(off _).1 hv, (off _).1 hf⟩)
  · rintro ⟨h1, h2⟩
    refine ⟨⟨_, List.mem_cons_of_mem _ (List.mem_cons_self ..), hinc⟩, ?_, ?_⟩
    · intro dir hd
      simp only [findPackage, List.mem_cons, List.not_mem_nil, or_false] at hd
      rcases hd with rfl | rfl
      · exact h1
      · exact ⟨_, hinc, _, rfl⟩
    · have hp : full p dirs.dataroot = full q dirs.dataroot ∨ d .useNatvis = some false ∧ d .useNatstepfilter = some false := by
        rcases h2 with h | rfl | h
        · exact .inl (by simp [full, h])
        · exact .inl rfl
        · exact .inr h
      rcases hp with h | ⟨ha, hb⟩
      · intro s hs
        simp only [findPackage, List.mem_append] at hs
        rcases hs with hs | hs <;> split at hs <;> simp only [List.mem_cons, List.not_mem_nil, or_false] at hs
        · rw [hs]; exact natvis_mem.2 h
        · rw [hs]; exact natstepfilter_mem.2 h
      · intro s hs
        simp [findPackage, ha, hb] at hs

/-- the directories that GNUInstallDirs chooses -/
def standard : Dirs := ⟨txt"share", txt"include"⟩

/-- the directory `include` is there by default -/
theorem include_there (q : Text) : DirThere (installed standard q) (join q (txt"include")) :=
  ⟨_, List.mem_cons_self .., txt"opt/option.hpp", rfl⟩

/-- configured for /usr/local and installed there -/
example : Usable (installed standard (txt"/usr/local")) (findPackage standard (txt"/usr/local") (txt"/usr/local") nothing) :=
  (C95_package ..).2 ⟨include_there _, .inr (.inl rfl)⟩

/-- **C95** is violated: `cmake --install build --prefix q` with a prefix other than that of the configuration installs a package that cannot be used,
with the standard directories and for every pair of prefixes, unless the user of the package switches off both debugger files; and an
include directory of another name gives a package that cannot be used. -/
theorem C95_package_violated :
    (∀ p q d, p ≠ q → (d .useNatvis ≠ some false ∨ d .useNatstepfilter ≠ some false) →
      ¬ Usable (installed standard q) (findPackage standard p q d)) ∧
    ∃ dirs p, dirs.dataroot = standard.dataroot ∧ ¬ Usable (installed dirs p) (findPackage dirs p p nothing) := by
  constructor
  · intro p q d hpq hd h
    rcases ((C95_package ..).1 h).2 with h | h | ⟨h1, h2⟩
    · exact absurd h (by decide)
    · exact hpq h
    · exact hd.elim (· h1) (· h2)
  · refine ⟨⟨txt"share", txt"inc"⟩, txt"/p", rfl, fun h => ?_⟩
    obtain ⟨f, hf, rest, rfl⟩ := ((C95_package ..).1 h).1
    simp only [installed, List.mem_cons, List.not_mem_nil, or_false] at hf
    rcases hf with h | h | h | h <;> simp [join, full, isAbsolute] at h

example : (txt"/usr/local") ≠ (txt"/home/me") ∧ nothing .useNatvis ≠ some false := by decide

/-- **C95** is violated: the same definitions give different sources with the package and with the files themselves, if and only if
OPTION_USE_NATSTEPFILTER is not defined. -/
theorem C95_same_violated (top : Bool) (m : Machine) (dirs : Dirs) (p q : Text) (d : Defs) :
    ((Item.natvis ∈ configure top m d ↔ join (full p dirs.dataroot) (txt"debugger/option.natvis") ∈ (findPackage dirs p q d).sources) ∧
     (Item.natstepfilter ∈ configure top m d ↔
        join (full p dirs.dataroot) (txt"debugger/option.natstepfilter") ∈ (findPackage dirs p q d).sources)) ↔
      d .useNatstepfilter ≠ none := by
  have ne : join (full p dirs.dataroot) (txt"debugger/option.natvis") ≠ join (full p dirs.dataroot) (txt"debugger/option.natstepfilter") := fun h => by
    have := congrArg List.getLast? h
    rw [last_join (by decide), last_join (by decide)] at this
    exact absurd this (by decide)
  have h1 : join (full p dirs.dataroot) (txt"debugger/option.natvis") ∈ (findPackage dirs p q d).sources ↔ (d .useNatvis).getD true = true := by
    simp only [findPackage, List.mem_append]
    split <;> split <;> simp_all
  have h2 : join (full p dirs.dataroot) (txt"debugger/option.natstepfilter") ∈ (findPackage dirs p q d).sources ↔
      (d .useNatstepfilter).getD true = true := by
    simp only [findPackage, List.mem_append]
    split <;> split <;> simp_all [ne.symm]
  rw [h1, h2, mem_configure, mem_configure]
  simp only [value, initial, true_and, iff_self]
  cases d .useNatstepfilter <;> simp

example : nothing .useNatstepfilter = none ∧ (findPackage standard (txt"/usr") (txt"/usr") nothing).sources.length = 2 ∧
    Item.natstepfilter ∉ configure true usual nothing := by decide

#print axioms C95_documented_partial
#print axioms C95_sanitizer_violated
#print axioms C95_examples_violated
#print axioms C95_natstepfilter_violated
#print axioms C95_install_violated
#print axioms C95_client_violated
#print axioms C95_package
#print axioms C95_package_violated
#print axioms C95_same_violated

end Opt.CMake
