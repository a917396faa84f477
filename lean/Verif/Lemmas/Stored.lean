import Verif.Lemmas.Frame
import Verif.Lemmas.Demo
import Verif.Spec.Stored

/-!
# What holds at the end of a computation that completes
-/

namespace Opt.Stored

variable {Val : Type} {P : Prog Val}

/-- whenever the computation completes normally -/
def Ends {α : Type} (x : M World α) (Q : World → Prop) : Prop := ∀ w a w', x w = .ok a w' → Q w'

theorem seq_ok {σ α β : Type} {x : M σ α} {f : α → M σ β} {w : σ} {b : β} {w' : σ} (h : (x >>= f) w = .ok b w') :
    ∃ a w1, x w = .ok a w1 ∧ f a w1 = .ok b w' := by
  simp only [bind, M.seq] at h
  cases hx : x w with
  | ok a w1 => rw [hx] at h; exact ⟨a, w1, rfl, h⟩
  | throw _ => rw [hx] at h; cases h
  | verify => rw [hx] at h; cases h
  | ub => rw [hx] at h; cases h

theorem onThrow_ok {σ α : Type} {x : M σ α} {h : M σ Unit} {w : σ} {b : α} {w' : σ} (e : M.onThrow x h w = .ok b w') : x w = .ok b w' := by
  unfold M.onThrow at e
  cases hx : x w with
  | ok a w1 => rw [hx] at e; exact e
  | throw s =>
    rw [hx] at e
    cases hh : h s with
    | ok _ _ => simp [hh] at e
    | throw _ => simp [hh] at e
    | verify => simp [hh] at e
    | ub => simp [hh] at e
  | verify => rw [hx] at e; cases e
  | ub => rw [hx] at e; cases e

theorem Ends.bind {α β : Type} {x : M World α} {f : α → M World β} {Q : World → Prop} (h : ∀ a, Ends (f a) Q) : Ends (x >>= f) Q := by
  intro w b w' e
  obtain ⟨a, w1, _, e⟩ := seq_ok e
  exact h a w1 b w' e

theorem Ends.onThrow {α : Type} {x : M World α} {h : M World Unit} {Q : World → Prop} (hx : Ends x Q) : Ends (M.onThrow x h) Q :=
  fun w a w' e => hx w a w' (onThrow_ok e)

theorem Ends.ite {α : Type} {b : Prop} [Decidable b] {x y : M World α} {Q : World → Prop} (hx : b → Ends x Q) (hy : ¬ b → Ends y Q) :
    Ends (if b then x else y) Q := by
  split
  · exact hx ‹_›
  · exact hy ‹_›

theorem Ends.bad {α : Type} {Q : World → Prop} : Ends (M.bad : M World α) Q := fun _ _ _ e => by cases e
theorem Ends.raise {α : Type} {Q : World → Prop} : Ends (M.raise : M World α) Q := fun _ _ _ e => by cases e

/-- `has_value()` changes nothing -/
theorem hasValue_same {i : Nat} {w : World} {b : Bool} {w' : World} (h : P.hasValue i w = .ok b w') : w' = w := by
  obtain ⟨o, w1, h1, h2⟩ := seq_ok h
  have hw : w1 = w := by
    unfold Prog.obj at h1
    split at h1
    · cases h1; rfl
    · cases h1
  subst hw
  split at h2
  · cases h2
  · cases h2; rfl

theorem check_ok {σ : Type} {c : Bool} {w w' : σ} (h : M.check c w = .ok () w') : c = true ∧ w' = w := by
  unfold M.check at h
  split at h
  · cases h; exact ⟨‹_›, rfl⟩
  · cases h

theorem getCheck_ok {i : Nat} {w w' : World} (h : P.getCheck i w = .ok () w') : w' = w ∧ Shows P i w := by
  obtain ⟨b, w1, h1, h2⟩ := seq_ok h
  obtain ⟨rfl, rfl⟩ := check_ok h2
  have := hasValue_same h1
  subst this
  exact ⟨rfl, h1⟩

theorem Ends.getCheck (i : Nat) : Ends (P.getCheck i) (Shows P i) := fun w _ w' e => by
  obtain ⟨rfl, h⟩ := getCheck_ok (by exact e)
  exact h

/-- the check after a construction -/
theorem ends_tail {i : Nat} (hs : (P.elem i).sent P.pw = true) {x : M World Unit} :
    Ends (if (P.elem i).sent P.pw then do
      let h ← P.hasValue i
      M.check h
    else x) (Shows P i) := by
  rw [if_pos hs]
  exact Ends.getCheck i

theorem ends_ctorArg {i : Nat} (hs : (P.elem i).sent P.pw = true) (src : Src Val) : Ends (P.ctorArg i src) (Shows P i) :=
  .bind fun _ => .bind fun _ => ends_tail hs

theorem ends_construct {i : Nat} (hs : (P.elem i).sent P.pw = true) (src : Src Val) : Ends (P.construct i src) (Shows P i) :=
  .bind fun _ => ends_tail hs

theorem ends_assignValue {i : Nat} (hs : (P.elem i).sent P.pw = true) (src : Src Val) : Ends (P.assignValue i src) (Shows P i) := by
  refine .bind fun _ => .ite (fun _ => ends_construct hs src) fun _ => .bind fun h => ?_
  cases h
  · exact ends_construct hs src
  · exact .bind fun _ => Ends.getCheck i

theorem asRet_ok {α : Type} {f : α → Ret Val} {x : M World α} {w : World} {r : Ret Val} {w' : World}
    (h : Prog.asRet f x w = .ok r w') : ∃ a, x w = .ok a w' := by
  obtain ⟨a, w1, h1, h2⟩ := seq_ok h
  cases h2
  exact ⟨a, h1⟩

theorem ends_asRet {α : Type} {f : α → Ret Val} {x : M World α} {Q : World → Prop} (h : Ends x Q) : Ends (Prog.asRet f x) Q :=
  fun w _ w' e => by
    obtain ⟨a, e⟩ := asRet_ok e
    exact h w a w' e

/-! ## Options nobody touches -/

/-- `has_value()` looks at the option only -/
theorem shows_congr {j : Nat} {w w' : World} (hm : w'.mem j = w.mem j) (h : Shows P j w) : Shows P j w' := by
  obtain ⟨o, w1, h1, h2⟩ := seq_ok h
  unfold Prog.obj at h1
  cases ho : w.mem j with
  | none => rw [ho] at h1; cases h1
  | some o' =>
    rw [ho] at h1; cases h1
    show ((Prog.obj j >>= _) w') = _
    simp only [bind, M.seq, Prog.obj, hm, ho]
    split at h2
    · cases h2
    · rename_i hf
      simp only [hf]
      cases h2' : (P.elem j).T.hasValue P.pw o.bytes with
      | false => rw [h2'] at h2; cases h2
      | true => rfl

theorem keeps_shows {α : Type} {S : List Nat} {x : M World α} (hx : Only S x) {w w' : World} {a : α} (e : x w = .ok a w') {j : Nat}
    (hj : j ∉ S) (h : Shows P j w) : Shows P j w' := by
  have := hx w
  rw [e] at this
  exact shows_congr (this j hj) h

theorem shows_alloc {j : Nat} {w : World} (h : Shows P j w) : ∃ o, w.mem j = some o := by
  cases ho : w.mem j with
  | some o => exact ⟨o, rfl⟩
  | none =>
    obtain ⟨o, w1, h1, _⟩ := seq_ok h
    simp [Prog.obj, ho] at h1

theorem newObj_free {i : Nat} {w w' : World} {a : Unit} (h : P.newObj i w = .ok a w') : w.mem i = none := by
  unfold Prog.newObj at h
  split at h
  · cases h
  · assumption

/-- a computation that needs a value in `j` -/
theorem known {α : Type} {j : Nat} {f : Bool → M World α} {w w' : World} {a : α} (hs : Shows P j w) (e : (P.hasValue j >>= f) w = .ok a w') :
    f true w = .ok a w' := by
  obtain ⟨b, w1, h1, h2⟩ := seq_ok e
  rw [hs] at h1
  cases h1
  exact h2

/-- the source is read through `get()` or directly, then the construction checks -/
theorem ends_read {i j : Nat} {mv : Bool} (hs : (P.elem i).sent P.pw = true) {w w' : World} {a : Unit}
    (e : (if P.cls i = P.cls j then P.construct i (.opt j mv) else (P.getCheck j >>= fun _ => P.construct i (.opt j mv))) w = .ok a w') :
    Shows P i w' :=
  (Ends.ite (fun _ => ends_construct hs _) fun _ => .bind fun _ => ends_construct hs _) _ _ _ e

theorem ctorManual_shows {i j : Nat} {mv : Bool} (hs : (P.elem i).sent P.pw = true) {w w' : World} {a : Unit} (hj : Shows P j w)
    (e : P.ctorManual i j mv w = .ok a w') : Shows P i w' := by
  obtain ⟨_, w1, h1, e⟩ := seq_ok e
  have hne : j ∉ [i] := by
    intro hm
    simp only [List.mem_singleton] at hm
    subst hm
    obtain ⟨_, _, h0, _⟩ := seq_ok h1
    obtain ⟨o, ho⟩ := shows_alloc hj
    rw [newObj_free h0] at ho
    cases ho
  have hj' := keeps_shows (P.only_ctorDefault (S := [i]) (i := i) (by simp)) h1 hne hj
  have e := known hj' (onThrow_ok e)
  exact ends_read hs (by rw [if_pos rfl] at e; exact e)

theorem ctorFrom_shows {i j : Nat} {mv : Bool} (hs : (P.elem i).sent P.pw = true) {w w' : World} {a : Unit} (hj : Shows P j w)
    (e : P.ctorFrom i j mv w = .ok a w') : Shows P i w' := by
  unfold Prog.ctorFrom at e
  split at e
  · rename_i hc
    by_cases hd : (if mv then (P.elem i).members.moveCtor else (P.elem i).members.copyCtor) = .default
    · rw [if_pos hd] at e
      obtain ⟨o, w1, h1, e1⟩ := seq_ok e
      obtain ⟨_, w2, h2, e2⟩ := seq_ok e1
      obtain ⟨o', w3, h3, h4⟩ := seq_ok hj
      unfold Prog.obj at h1 h3
      cases ho : w.mem j with
      | none => rw [ho] at h1; cases h1
      | some q =>
        rw [ho] at h1 h3; cases h1; cases h3
        cases e2
        have hel : P.elem i = P.elem j := by simp [Prog.elem, hc]
        show ((Prog.obj i >>= _) _) = _
        simp only [bind, M.seq, Prog.obj, upd, if_pos, hel]
        split at h4
        · cases h4
        · rename_i hf
          simp only [hf]
          cases h4' : (P.elem j).T.hasValue P.pw o.bytes with
          | false => rw [h4'] at h4; cases h4
          | true => rfl
    · rw [if_neg hd] at e
      exact ctorManual_shows hs hj e
  · exact ctorManual_shows hs hj e

theorem ctorFrom_free {i j : Nat} {mv : Bool} {w w' : World} {a : Unit} (e : P.ctorFrom i j mv w = .ok a w') : w.mem i = none := by
  have man : ∀ {a}, P.ctorManual i j mv w = .ok a w' → w.mem i = none := by
    intro a e
    obtain ⟨_, w1, h1, _⟩ := seq_ok e
    obtain ⟨_, w2, h2, _⟩ := seq_ok h1
    exact newObj_free h2
  unfold Prog.ctorFrom at e
  by_cases hc : P.cls i = P.cls j
  · rw [if_pos hc] at e
    by_cases hd : (if mv then (P.elem i).members.moveCtor else (P.elem i).members.copyCtor) = .default
    · rw [if_pos hd] at e
      obtain ⟨o, w1, h1, e1⟩ := seq_ok e
      obtain ⟨_, w2, h2, e2⟩ := seq_ok e1
      unfold Prog.obj at h1
      split at h1
      · cases h1
        exact newObj_free h2
      · cases h1
    · rw [if_neg hd] at e
      exact man e
  · rw [if_neg hc] at e
    exact man e

theorem take_shows {i r : Nat} (hs : (P.elem r).sent P.pw = true) {w w' : World} {a : Unit} (hi : Shows P i w)
    (e : P.take i r w = .ok a w') : Shows P r w' := by
  obtain ⟨_, w1, h1, h2⟩ := seq_ok e
  refine keeps_shows (P.only_reset (S := [i]) (i := i) (by simp)) h2 ?_ (ctorFrom_shows hs hi h1)
  intro hm
  simp only [List.mem_singleton] at hm
  subst hm
  obtain ⟨o, ho⟩ := shows_alloc hi
  rw [ctorFrom_free h1] at ho
  cases ho

theorem assignConv_shows {i j : Nat} {mv : Bool} (hc : P.cls i ≠ P.cls j) (hs : (P.elem i).sent P.pw = true) {w w' : World} {a : Unit}
    (hj : Shows P j w) (e : P.assignFrom i j mv w = .ok a w') : Shows P i w' := by
  unfold Prog.assignFrom at e
  rw [if_neg hc] at e
  have e := known hj e
  simp only [if_true] at e
  obtain ⟨hi, w1, h1, e⟩ := seq_ok e
  cases hi
  · simp only [Bool.false_eq_true, if_false] at e
    exact ends_read hs e
  · simp only [if_true, if_neg hc] at e
    exact (Ends.bind fun _ => .bind fun _ => Ends.getCheck i) _ _ _ e

theorem allHave_true {js : List (Nat × Bool)} {w : World} (h : ∀ p ∈ js, Shows P p.1 w) : P.allHave js w = .ok true w := by
  induction js with
  | nil => rfl
  | cons p js ih =>
    obtain ⟨j, mv⟩ := p
    show ((P.hasValue j >>= _) w) = _
    have := h (j, mv) (by simp)
    simp only [bind, M.seq]
    rw [show P.hasValue j w = .ok true w from this]
    exact ih fun q hq => h q (by simp [hq])

theorem drop_shows {x : M World Unit} (hx : Only [] x) {i : Nat} {w w' : World} {a : Unit} (h : Shows P i w) (e : x w = .ok a w') :
    Shows P i w' := keeps_shows hx e (by simp) h

/-! ## What is written -/

/-- the bytes of option `i` mean "empty" -/
def Blank (P : Prog Val) (i : Nat) (w : World) : Prop := ∃ o, w.mem i = some o ∧ (P.elem i).T.hasValue P.pw o.bytes = false

theorem ends_setPayload {i : Nat} {b : Bytes} {al : Bool} (h : ∀ bs, (P.elem i).T.hasValue P.pw (wr bs 0 b) = false) :
    Ends (Prog.setPayload i b al) (Blank P i) := by
  intro w a w' e
  obtain ⟨o, w1, _, e⟩ := seq_ok e
  cases e
  exact ⟨⟨wr o.bytes 0 b, al⟩, by simp [upd], h _⟩

theorem ends_writeT {i n : Nat} {v : Val} (h : LooksEmpty P i v) : Ends (P.writeT i n v) (Blank P i) :=
  .bind fun _ => .ite (fun _ => ends_setPayload fun bs => h _ _ bs) fun _ => .bad

theorem outside_val {i : Nat} {src : Src Val} {v : Val} (ho : outside src = some v) : P.srcVal i src = pure v := by
  cases src <;> simp_all [outside, Prog.srcVal]

theorem outside_bytes {i : Nat} {src : Src Val} {v : Val} (ho : outside src = some v) (old : Bytes) :
    P.srcBytes i v old src = (do let n ← Prog.now; pure (P.build i n v old)) := by
  cases src <;> simp_all [outside, Prog.srcBytes]

theorem outside_self {i : Nat} {src : Src Val} {v : Val} (ho : outside src = some v) : src.isSelf i = false := by
  cases src <;> simp_all [outside, Src.isSelf]

theorem val_ok {α : Type} {v : Val} {f : Val → M World α} {w : World} {a : α} {w' : World}
    (e : ((pure v : M World Val) >>= f) w = .ok a w') : f v w = .ok a w' := e

theorem bytes_blank {i : Nat} {src : Src Val} {v : Val} (ho : outside src = some v) (h : LooksEmpty P i v) (old : Bytes) :
    Ends (P.srcBytes i v old src >>= fun b => Prog.setPayload i b true) (Blank P i) := by
  intro w a w' e
  rw [outside_bytes ho] at e
  obtain ⟨b, w1, h1, e⟩ := seq_ok e
  obtain ⟨n, w2, _, h3⟩ := seq_ok h1
  cases h3
  exact ends_setPayload (fun bs => h _ _ bs) _ _ _ e

theorem pure_bind_ends {α : Type} {v : Val} {f : Val → M World α} {Q : World → Prop} (h : Ends (f v) Q) : Ends ((pure v : M World Val) >>= f) Q :=
  fun w a w' e => h w a w' (val_ok e)

theorem ends_note {i : Nat} {x : M World Unit} {e : Event} (h : Ends x (Blank P i)) : Ends (x >>= fun _ => Prog.note e) (Blank P i) := by
  intro w a w' e'
  obtain ⟨_, w1, h1, h2⟩ := seq_ok e'
  cases h2
  have hb : Blank P i w1 := h _ _ _ h1
  exact hb

theorem ends_inPlace {i : Nat} {src : Src Val} {v : Val} (ho : outside src = some v) (h : LooksEmpty P i v) :
    Ends (P.constructInPlace i src) (Blank P i) := by
  unfold Prog.constructInPlace
  refine .bind fun _ => .ite (fun _ => .bad) fun _ => .ite (fun _ => .bad) fun _ => ?_
  rw [outside_val ho]
  refine pure_bind_ends (.ite (fun _ => bytes_blank ho h _) fun _ => .bind fun _ => .ite ?_ fun _ => .bind fun _ => ends_setPayload fun bs => h _ _ bs)
  exact fun _ => .bind fun _ => .ite (fun _ => .raise) fun _ => .bind fun _ => .raise

theorem ends_byAssign {i : Nat} {src : Src Val} {v : Val} (ho : outside src = some v) (h : LooksEmpty P i v) :
    Ends (P.constructByAssign i src) (Blank P i) := by
  unfold Prog.constructByAssign
  refine .bind fun _ => ?_
  rw [outside_val ho]
  refine pure_bind_ends (.ite (fun _ => bytes_blank ho h _) fun _ => .ite ?_ ?_)
  · exact fun _ => .bind fun _ => .bind fun _ => .ite (fun _ => .raise) fun _ => ends_setPayload fun bs => h _ _ bs
  · exact fun _ => .bind fun _ => .bind fun _ => .ite (fun _ => .raise) fun _ => ends_note (ends_setPayload fun bs => h _ _ bs)

theorem ends_constructAt {i : Nat} {src : Src Val} {v : Val} (ho : outside src = some v) (h : LooksEmpty P i v) :
    Ends (P.constructAt i src) (Blank P i) := .ite (fun _ => ends_inPlace ho h) fun _ => ends_byAssign ho h

theorem ends_assignT {i : Nat} {src : Src Val} {v : Val} (ho : outside src = some v) (h : LooksEmpty P i v) :
    Ends (P.assignT i src) (Blank P i) := by
  unfold Prog.assignT
  refine .bind fun _ => .ite (fun _ => .bad) fun _ => .ite (fun _ => ?_) fun _ => .bind fun _ => ?_
  · rw [outside_val ho]
    exact pure_bind_ends (bytes_blank ho h _)
  · rw [outside_val ho, outside_self ho]
    refine pure_bind_ends (.bind fun _ => .ite ?_ ?_)
    · exact fun _ => .bind fun _ => .bind fun _ => .raise
    · exact fun _ => .ite (fun hf => by cases hf) fun _ => .bind fun _ => ends_writeT h

theorem blank_check {i : Nat} {w w' : World} {a : Unit} (hb : Blank P i w) (e : P.getCheck i w = .ok a w') : False := by
  obtain ⟨_, hsh⟩ := getCheck_ok e
  obtain ⟨o, ho, hv⟩ := hb
  obtain ⟨o', w1, h1, h2⟩ := seq_ok hsh
  unfold Prog.obj at h1
  rw [ho] at h1; cases h1
  split at h2
  · cases h2
  · rw [hv] at h2; cases h2

theorem never_after {i : Nat} {x : M World Unit} (h : Ends x (Blank P i)) : Ends (x >>= fun _ => P.getCheck i) fun _ => False := by
  intro w a w' e
  obtain ⟨_, w1, h1, h2⟩ := seq_ok e
  exact blank_check (h _ _ _ h1) h2

theorem never_tail {i : Nat} (hs : (P.elem i).sent P.pw = true) {x y : M World Unit} (h : Ends x (Blank P i)) :
    Ends (x >>= fun _ => if (P.elem i).sent P.pw then do
      let h ← P.hasValue i
      M.check h
    else y) fun _ => False := by
  rw [if_pos hs]
  exact never_after h

theorem never_construct {i : Nat} (hs : (P.elem i).sent P.pw = true) {src : Src Val} {v : Val} (ho : outside src = some v)
    (h : LooksEmpty P i v) : Ends (P.construct i src) fun _ => False := never_tail hs (ends_constructAt ho h)

theorem never_ctorArg {i : Nat} (hs : (P.elem i).sent P.pw = true) {src : Src Val} {v : Val} (ho : outside src = some v)
    (h : LooksEmpty P i v) : Ends (P.ctorArg i src) fun _ => False :=
  .bind fun _ => never_tail hs (ends_inPlace ho h).onThrow

theorem never_assignValue {i : Nat} (hs : (P.elem i).sent P.pw = true) {src : Src Val} {v : Val} (ho : outside src = some v)
    (h : LooksEmpty P i v) : Ends (P.assignValue i src) fun _ => False := by
  refine .bind fun _ => .ite (fun _ => never_construct hs ho h) fun _ => .bind fun b => ?_
  cases b
  · exact never_construct hs ho h
  · exact never_after (ends_assignT ho h)

theorem never_emplace {i : Nat} (hs : (P.elem i).sent P.pw = true) {src : Src Val} {v : Val} (ho : outside src = some v)
    (h : LooksEmpty P i v) : Ends (P.emplace i src) fun _ => False := by
  refine .bind fun _ => .bind fun _ => ?_
  intro w a w' e
  obtain ⟨_, w1, h1, _⟩ := seq_ok e
  exact never_construct hs ho h _ _ _ h1

/-! ## The example -/

theorem handle_dom {left conv : Byte → Byte} {v : Byte} : ((handles left conv).elemOf 0).Dom 64 v ↔ v ≠ 255 := by
  constructor
  · rintro ⟨bs, ⟨hl, hv⟩, rfl⟩
    obtain ⟨b, rfl⟩ := List.length_eq_one_iff.1 hl
    simpa [handles] using hv
  · intro h
    exact ⟨[v], ⟨rfl, by simpa using h⟩, rfl⟩

theorem char_dom {left conv : Byte → Byte} {c : Nat} (hc : c ≠ 0) {v : Byte} : ((handles left conv).elemOf c).Dom 64 v := by
  obtain ⟨c, rfl⟩ := Nat.exists_eq_succ_of_ne_zero hc
  exact ⟨[v], rfl, rfl⟩

theorem handles_ok : (handles id cap).OK where
  pw := .inr rfl
  wf := fun c => by
    match c with
    | 0 => exact ⟨⟨rfl, by decide⟩, by decide, fun h => h⟩
    | _ + 1 => exact Demo.wf_plain
  size := fun c => by
    match c with
    | 0 => decide
    | _ + 1 => exact Nat.le_refl 1
  tcc_td := fun c h => by
    match c with
    | 0 => exact absurd h (by decide)
    | _ + 1 => rfl
  tmc_td := fun c h => by
    match c with
    | 0 => exact absurd h (by decide)
    | _ + 1 => rfl
  scalar := fun c h => by
    match c with
    | 0 => exact absurd h (by decide)
    | _ + 1 => exact ⟨rfl, rfl, rfl, rfl, rfl⟩
  garbage := fun i n => by
    rcases Nat.mod_two_eq_zero_or_one i with h | h
    · show (if i % 2 = 0 then [0] else [0, 0] : Bytes).length = (Ty.option ((handles id cap).elemOf (i % 2)).T).size 64
      rw [h]; decide
    · show (if i % 2 = 0 then [0] else [0, 0] : Bytes).length = (Ty.option ((handles id cap).elemOf (i % 2)).T).size 64
      rw [h]; decide
  build := fun i n v old h _ => by
    change ((handles id cap).elemOf (i % 2)).Dom 64 v at h
    show ((handles id cap).elemOf (i % 2)).T.Valid 64 [v] ∧ ((handles id cap).elemOf (i % 2)).decode [v] = v
    rcases Nat.mod_two_eq_zero_or_one i with hi | hi
    · rw [hi] at h ⊢
      exact ⟨⟨rfl, by simpa using handle_dom.1 h⟩, rfl⟩
    · rw [hi]
      exact ⟨rfl, rfl⟩
  partial_ := fun _ _ _ _ h => h
  dead := fun _ _ _ h => h
  moved := fun _ i _ v h => by
    show ((handles id cap).elem i).Dom 64 (if i % 2 = 0 then v else v)
    rw [ite_self]; exact h
  selfMoved := fun _ _ _ h => h
  broken := fun _ _ _ _ _ h => h
  conv := fun c d v _ => by
    show ((handles id cap).elemOf c).Dom 64 (if c = 0 then cap v else v)
    by_cases hc : c = 0
    · subst hc
      refine handle_dom.2 ?_
      rw [if_pos rfl]
      unfold cap
      split
      · decide
      · assumption
    · exact char_dom hc

end Opt.Stored
