import Verif.Lemmas.Suite

/-!
# A concrete type for the generic test: `bool`

Values are bytes.  `option<bool>` has levels, everything else has a flag.
-/

namespace Opt.Suite.Demo

/-- sizes of the contained types -/
def size : Nat → Nat
  | 1 => 2
  | 3 => 2
  | 4 => 4
  | 5 => 3
  | 6 => 3
  | _ => 1

/-- contained types -/
def elemOf (c : Nat) : Elem Bytes :=
  { T := if c = 0 then .bool else .plain (size c) 1, decode := id, trivDtor := true, trivCopyCtor := true, trivCopyAssign := true,
    trivMoveCtor := true, trivMoveAssign := true, scalar := false }

/-- a boolean from whatever -/
def bit (v : Bytes) : Bytes := [v.getD 0 0 &&& 1]

/-- the right number of bytes -/
def fit (n : Nat) (v : Bytes) : Bytes := (v ++ List.replicate n 0).take n

/-- the program -/
def prog : Prog Bytes where
  pw := 64
  cxx20 := true
  cls := fun i => i % 8
  elemOf := elemOf
  throwsAt := fun _ => false
  garbage := fun i _ => List.replicate (if i % 8 = 0 then 1 else size (i % 8) + 1) 0xAA
  build := fun _ _ v _ => v
  partial_ := fun _ _ _ old => old
  dead := fun _ _ old => old
  moved := fun _ _ _ v => v
  selfMoved := fun _ _ v => v
  broken := fun _ _ _ v => v
  conv := fun c _ v => if c = 0 then bit v else fit (size c) v

/-- comparison of first bytes -/
def less (a b : Bytes) : Bool := (a.getD 0 0).ult (b.getD 0 0)

/-- the types of the test -/
def kit : Kit Bytes where
  rel := fun o a b => match o with | .eq => a == b | .ne => a != b | .lt => less a b | .le => !less b a | .gt => less b a | .ge => !less a b
  v := fun n => if n % 2 = 0 then [0] else [1]
  dflt := [0]
  num := fun x => [BitVec.ofInt 8 x]
  nest := fun x => match x with | none => [0, 0] | some x => [BitVec.ofInt 8 x, 1]
  tup := fun _ xs => xs.flatten
  q := ⟨fun k v => [v.getD k 0 &&& 1], fun _ _ _ v => v⟩
  toInt := fit 1

theorem elem_eq (i : Nat) : prog.elem i = elemOf (i % 8) := rfl

theorem dom_zero {v : Bytes} : (elemOf 0).Dom 64 v ↔ v = [0] ∨ v = [1] := by
  constructor
  · rintro ⟨bs, ⟨h1, h2⟩, rfl⟩
    match bs, h1 with
    | [b], _ =>
      have : ld 8 [b] 0 = b := Opt.Demo.ld_bytes1 b
      rw [this] at h2
      rcases h2 with h | h
      · exact .inl (by rw [h]; rfl)
      · exact .inr (by rw [h]; rfl)
  · rintro (rfl | rfl)
    · exact ⟨[0], ⟨rfl, .inl (by decide)⟩, rfl⟩
    · exact ⟨[1], ⟨rfl, .inr (by decide)⟩, rfl⟩

theorem dom_pos {c : Nat} (hc : c ≠ 0) {v : Bytes} : (elemOf c).Dom 64 v ↔ v.length = size c := by
  have h : (elemOf c).T = .plain (size c) 1 := if_neg hc
  constructor
  · rintro ⟨bs, hb, rfl⟩
    rw [h] at hb
    exact hb
  · intro hv
    exact ⟨v, by rw [h]; exact hv, rfl⟩

theorem fit_length (n : Nat) (v : Bytes) : (fit n v).length = n := by simp [fit]

theorem bit_dom (b : Byte) : [b &&& 1] = ([0] : Bytes) ∨ [b &&& 1] = ([1] : Bytes) := by
  have : ∀ b : Byte, b &&& 1 = 0 ∨ b &&& 1 = 1 := by decide
  rcases this b with h | h
  · exact .inl (by rw [h])
  · exact .inr (by rw [h])

theorem size_pos (c : Nat) : 1 ≤ size c := by
  unfold size
  split <;> omega

theorem ok : prog.OK where
  pw := .inr rfl
  wf := fun c => by
    match c with
    | 0 => exact Opt.Demo.wf_bool
    | 1 => exact ⟨trivial, by decide, fun h => absurd h (by decide)⟩
    | 2 => exact ⟨trivial, by decide, fun h => absurd h (by decide)⟩
    | 3 => exact ⟨trivial, by decide, fun h => absurd h (by decide)⟩
    | 4 => exact ⟨trivial, by decide, fun h => absurd h (by decide)⟩
    | 5 => exact ⟨trivial, by decide, fun h => absurd h (by decide)⟩
    | 6 => exact ⟨trivial, by decide, fun h => absurd h (by decide)⟩
    | _ + 7 => exact Opt.Demo.wf_plain
  size := fun c => by
    show 1 ≤ (elemOf c).T.size 64
    by_cases hc : c = 0
    · subst hc; decide
    · have h : (elemOf c).T = .plain (size c) 1 := if_neg hc
      rw [h]; exact size_pos c
  tcc_td := fun _ _ => rfl
  tmc_td := fun _ _ => rfl
  scalar := fun _ _ => ⟨rfl, rfl, rfl, rfl, rfl⟩
  garbage := fun i n => by
    rw [elem_eq]
    show (List.replicate _ _).length = _
    have h : i % 8 < 8 := Nat.mod_lt _ (by decide)
    rw [List.length_replicate]
    generalize i % 8 = c at h
    match c, h with
    | 0, _ => decide
    | 1, _ => decide
    | 2, _ => decide
    | 3, _ => decide
    | 4, _ => decide
    | 5, _ => decide
    | 6, _ => decide
    | 7, _ => decide
  build := fun i n v old ⟨bs, hb, h⟩ _ => by
    cases h
    exact ⟨hb, rfl⟩
  partial_ := fun _ _ _ _ h => h
  dead := fun _ _ _ h => h
  moved := fun _ _ _ _ h => h
  selfMoved := fun _ _ _ h => h
  broken := fun _ _ _ _ _ h => h
  conv := fun c d v _ => by
    show (elemOf c).Dom 64 (if c = 0 then bit v else fit (size c) v)
    by_cases hc : c = 0
    · subst hc
      exact dom_zero.2 (bit_dom _)
    · rw [if_neg hc]
      exact (dom_pos hc).2 (fit_length _ _)

theorem len0 {x : Bytes} (h : (prog.elem 0).Dom 64 x) : x.length = 1 := by
  rcases dom_zero.1 h with rfl | rfl <;> rfl

theorem flat_get {xs : List Bytes} (h : ∀ y ∈ xs, (prog.elem 0).Dom 64 y) {k : Nat} {x : Bytes} (hk : xs[k]? = some x) :
    [xs.flatten.getD k 0 &&& 1] = x := by
  induction xs generalizing k with
  | nil => simp at hk
  | cons y ys ih =>
    have hy := dom_zero.1 (h y (by simp))
    match k with
    | 0 =>
      simp at hk
      subst hk
      rcases hy with rfl | rfl <;> simp
    | k + 1 =>
      have := ih (fun z hz => h z (by simp [hz])) (k := k) (by simpa using hk)
      rcases hy with rfl | rfl <;> simpa using this

theorem kit_ok : kit.OK prog where
  ok := ok
  calm := fun _ => rfl
  cls := fun i => (Nat.mod_mod i 8).symm
  v := fun n => dom_zero.2 (by
    show (if n % 2 = 0 then [0] else [1]) = _ ∨ (if n % 2 = 0 then [0] else [1]) = _
    split
    · exact .inl rfl
    · exact .inr rfl)
  dflt := dom_zero.2 (.inl rfl)
  num := fun x => (dom_pos (by decide)).2 rfl
  nest := fun x => (dom_pos (by decide)).2 (by cases x <;> rfl)
  pair := fun x y hx hy => (dom_pos (by decide)).2 (by simp [kit, len0 hx, len0 hy]; rfl)
  tuple := fun x y z u hx hy hz hu => (dom_pos (by decide)).2 (by simp [kit, len0 hx, len0 hy, len0 hz, len0 hu]; rfl)
  array := fun x y z hx hy hz => (dom_pos (by decide)).2 (by simp [kit, len0 hx, len0 hy, len0 hz]; rfl)
  record := fun x y n hx hy => (dom_pos (by decide)).2 (by simp [kit, len0 hx, len0 hy]; rfl)
  elems := fun c _ v hv k => ⟨dom_zero.2 (bit_dom _), fun _ _ => hv⟩
  part := fun c k xs x hx h => flat_get hx h
  toInt := fun i j x hi hj => by
    show (if i % 8 = j % 8 then x else _) = _
    rw [if_neg (by omega)]
    show (if i % 8 = 0 then _ else fit (size (i % 8)) x) = _
    rw [hi]; rfl
  eqv := fun n => by simp [kit]
  eqd := by simp [kit]
  eqn := fun n => by simp [kit]
  eqo := fun n => by simp [kit]
  ne01 := by decide
  ne10 := by decide

theorem kit_ordered : kit.Ordered where
  same := fun o n => by
    have h : kit.v n = [0] ∨ kit.v n = [1] := dom_zero.1 (kit_ok.v n)
    rcases h with h | h <;> rw [h] <;> cases o <;> decide
  up := fun o => by cases o <;> decide
  down := fun o => by cases o <;> decide

end Opt.Suite.Demo
