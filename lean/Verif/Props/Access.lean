import Verif.Spec.Access
import Verif.Props.Compare

/-!
# C36, C42 and C44: element access
-/

namespace Opt

variable {Val : Type}

/-! ## C42 -/

/-- **C42**: the full table of `copy_reference` and of `copy_lvalue_reference`: for every pair of kinds there is a unique best
specialisation, and the result is a value for values, an lvalue reference exactly for an lvalue reference from an lvalue
container, an rvalue reference otherwise; `copy_lvalue_reference` makes references for lvalue containers only. -/
theorem C42_tables (t u : RefKind) :
    copyReference t u = some (if t = .val then .val else if t = .lref ∧ u = .lref then .lref else .rref) ∧
      copyLvalueReference t u = some (if t = .val ∧ u = .lref then .lref else t) := by
  cases t <;> cases u <;> decide

example : copyReference .lref .val = some .rref ∧ copyLvalueReference .val .lref = some .lref := by decide

/-- **C42**: for every accessor expression and every category of the container the result type and the cast are well-formed,
the result refers to the very object the accessor designated (no copy is made), it is of the fitting kind, and it is a
reference only if the accessor yielded an existing object, so it never refers to a temporary. -/
theorem C42_wrap (c : Cat) (e : Expr Val) :
    ∃ g, wrap c e = .ok g ∧ g.denotes = e.denotes ∧ g.kind = fitting c e ∧ (g.kind = .val ↔ ∃ v, e = .prvalue v) := by
  cases c <;> cases e <;>
    exact ⟨_, rfl, rfl, rfl, by simp [Got.kind]⟩

example : wrap .rvalue (.lvalue (3, 1) : Expr Nat) = .ok (.rref (3, 1)) := rfl

/-- **C42**: the reference kinds of `opt::get<I>` on options of tuples: an lvalue option gives an lvalue reference for every
kind of element; an rvalue option gives an rvalue reference for every kind of element. -/
theorem C42_tuple_kinds (c : Cat) (k : RefKind) :
    copyReference (tupleGetKind c k) c.deduced = some (match c with
      | .lvalue => .lref
      | .rvalue => .rref) := by
  cases c <;> cases k <;> decide

/-- an rvalue option of a tuple with an lvalue reference element -/
example : copyReference (tupleGetKind .rvalue .lref) Cat.rvalue.deduced = some .rref := C42_tuple_kinds .rvalue .lref

/-- A consequence worth knowing: for an element that is itself an lvalue reference the rvalue overload gives an rvalue
reference to an object that the option does not own (`std::get` on an rvalue tuple would give an lvalue reference). -/
theorem C42_rvalue_reference_to_borrowed (t : Tup) (i n : Nat) (h : t.kinds[n]? = some .lref) :
    ∃ e : Expr Val, t.get .rvalue i n = some e ∧ e = .lvalue (t.target n) ∧
      wrap .rvalue e = .ok (.rref (t.target n)) := by
  refine ⟨.lvalue (t.target n), ?_, rfl, rfl⟩
  simp only [Tup.get, h, tupleGetKind, RefKind.addR]

example : (⟨[.val, .lref], fun _ => (9, 4)⟩ : Tup).kinds[1]? = some .lref := rfl

/-! ## C36 -/

/-- **C36**: `at(c, n)` is engaged exactly if `n` is less than the size, and then refers to element `n`; otherwise it is empty.
It never reaches the undefined access outside the container, for any size and index up to `2^64 - 1`. -/
theorem C36_at (s : Seq Val) (c : Cat) (n : U64) :
    (n.toNat < s.size.toNat → Refers c (s.elem c n.toNat) (s.at_ c n)) ∧
      (s.size.toNat ≤ n.toNat → s.at_ c n = .ok none) := by
  constructor
  · intro h
    obtain ⟨g, h1, h2, h3, _⟩ := C42_wrap c (s.elem c n.toNat)
    refine ⟨g, ?_, h2, h3⟩
    have hlt : n < s.size := h
    have hge : ¬ n ≥ s.size := by show ¬ s.size.toNat ≤ n.toNat; omega
    simp only [Seq.at_, Seq.sub, hge, hlt, if_false, if_true, Res.bind, h1, Res.map]
  · intro h
    have hge : n ≥ s.size := h
    simp only [Seq.at_, hge, if_true]

/-- three elements in array 5 -/
example : (⟨3, fun _ n => .lvalue (5, n)⟩ : Seq Nat).at_ .lvalue 2 = .ok (some (.lref (5, 2))) ∧
    (⟨3, fun _ n => .lvalue (5, n)⟩ : Seq Nat).at_ .lvalue (-1) = .ok none := by decide

/-- **C36**: `at_front` and `at_back` are engaged exactly if the container is not empty, and refer to the first and the last
element; the undefined `front()`/`back()` of an empty container is never reached. -/
theorem C36_front_back (s : Seq Val) (c : Cat) :
    (0 < s.size.toNat → Refers c (s.elem c 0) (s.atFront c) ∧ Refers c (s.elem c (s.size.toNat - 1)) (s.atBack c)) ∧
      (s.size.toNat = 0 → s.atFront c = .ok none ∧ s.atBack c = .ok none) := by
  constructor
  · intro h
    have hne : ¬ s.size = 0 := by intro e; rw [e] at h; exact absurd h (by decide)
    have hsub : (s.size - 1).toNat = s.size.toNat - 1 := by
      rw [BitVec.toNat_sub_of_le]
      · rfl
      · show (1#64).toNat ≤ s.size.toNat; exact h
    constructor
    · obtain ⟨g, h1, h2, h3, _⟩ := C42_wrap c (s.elem c 0)
      exact ⟨g, by simp only [Seq.atFront, Seq.front, hne, if_false, Res.bind, h1, Res.map], h2, h3⟩
    · obtain ⟨g, h1, h2, h3, _⟩ := C42_wrap c (s.elem c (s.size.toNat - 1))
      exact ⟨g, by simp only [Seq.atBack, Seq.back, hne, if_false, hsub, Res.bind, h1, Res.map], h2, h3⟩
  · intro h
    have he : s.size = 0 := BitVec.eq_of_toNat_eq h
    simp only [Seq.atFront, Seq.atBack, he, if_true, and_self]

example : (⟨3, fun _ n => .lvalue (5, n)⟩ : Seq Nat).atBack .rvalue = .ok (some (.rref (5, 2))) := by decide

/-- **C36**: `lookup` is engaged exactly if some element has an equivalent key, and then refers to such an element; it never
dereferences `end()`. -/
theorem C36_lookup {K Elem : Type} (a : Assoc K Elem) (k : K) :
    ((∃ e ∈ a.items, a.equiv (a.key e) k = true) →
      ∃ n e, a.lookup k = .ok (some n) ∧ a.items[n]? = some e ∧ a.equiv (a.key e) k = true) ∧
    ((∀ e ∈ a.items, a.equiv (a.key e) k = false) → a.lookup k = .ok none) := by
  constructor
  · rintro ⟨e, he, hk⟩
    have hlt : a.find k < a.items.length := List.findIdx_lt_length_of_exists ⟨e, he, hk⟩
    refine ⟨a.find k, a.items[a.find k], ?_, ?_, ?_⟩
    · have hne : ¬ a.find k = a.items.length := by omega
      simp only [Assoc.lookup, Assoc.end_, hne, if_false, Assoc.deref, hlt, if_true, Res.map]
    · exact List.getElem?_eq_getElem hlt
    · exact List.findIdx_getElem (w := hlt)
  · intro h
    have : a.find k = a.items.length := by
      apply List.findIdx_eq_length_of_false
      intro e he
      simp [h e he]
    simp only [Assoc.lookup, Assoc.end_, this, if_true]

example : (⟨[(3, 30), (1, 10), (3, 31)], Prod.fst, fun a b => a == b⟩ : Assoc Nat (Nat × Nat)).lookup 7 = .ok none :=
  (C36_lookup _ 7).2 (by decide)

/-- **C36**: with unique keys (a `map` or `set`), `lookup` finds the element of the key and no other. -/
theorem C36_lookup_unique {K Elem : Type} (a : Assoc K Elem) (k : K)
    (hu : ∀ (n m : Nat) e f, a.items[n]? = some e → a.items[m]? = some f → a.equiv (a.key e) k = true →
      a.equiv (a.key f) k = true → n = m)
    (n : Nat) (e : Elem) (he : a.items[n]? = some e) (hk : a.equiv (a.key e) k = true) : a.lookup k = .ok (some n) := by
  obtain ⟨m, f, h1, h2, h3⟩ := (C36_lookup a k).1 ⟨e, List.mem_of_getElem? he, hk⟩
  rw [hu n m e f he h2 hk h3, h1]

example : (⟨[(3, 30), (1, 10), (2, 20)], Prod.fst, fun a b => a == b⟩ : Assoc Nat (Nat × Nat)).lookup 1 = .ok (some 1) ∧
    (⟨[(3, 30), (1, 10), (2, 20)], Prod.fst, fun a b => a == b⟩ : Assoc Nat (Nat × Nat)).lookup 7 = .ok none := by decide

/-! ## C44 -/

/-- **C44**: `opt::get<I>` on an option of a tuple is empty for an empty option; for an engaged one it refers to element `I`
of the contained tuple (or to the object that element refers to), with an lvalue reference for an lvalue option and an rvalue
reference for an rvalue option.  It changes nothing and calls no user code. -/
theorem C44_tuple {P : Prog Val} {w : World} {i : Nat} (hw : P.Inv w) {x : Option Val} (hx : P.view w i = some x)
    (tup : Val → Tup) (c : Cat) (n : Nat) (hn : ∀ v, x = some v → n < (tup v).kinds.length) :
    P.getAt tup c i n w = .ok (x.map fun v =>
      let r := if (tup v).kinds[n]? = some .val then (i, n) else (tup v).target n
      match c with
      | .lvalue => .lref r
      | .rvalue => .rref r) w := by
  have h := Prog.hasValue_eq hw hx
  cases x with
  | none => simp only [Prog.getAt, bind_run, h, obind_ok, Option.isSome, Bool.false_eq_true, if_false, pure_run, Option.map]
  | some v =>
    have hl := hn v rfl
    obtain ⟨k, hk⟩ : ∃ k, (tup v).kinds[n]? = some k := ⟨_, List.getElem?_eq_getElem hl⟩
    simp only [Prog.getAt, bind_run, h, obind_ok, Option.isSome, if_true, Prog.get_eq hw hx, Option.map, hk, Tup.get]
    cases c <;> cases k <;> rfl

/-- contained bytes as tuples of a value and a reference -/
example : Demo.calm.getAt (fun _ => ⟨[.val, .lref], fun _ => (9, 4)⟩) .lvalue 1 0 Demo.world =
    .ok (some (.lref (1, 0))) Demo.world :=
  C44_tuple (P := Demo.calm) Demo.inv Demo.view1 _ _ _ (by intro v _; decide)

/-- **C44**: `opt::get<I>` on a variant is engaged exactly if alternative `I` is active, and then refers to it; for a
valueless variant it is empty for every `I`. -/
theorem C44_variant_index (v : Var) (c : Cat) (n : Nat) :
    (v.active = some n → Refers c (.lvalue v.place : Expr Val) (v.get c n)) ∧
      (v.active ≠ some n → (v.get c n : Res (Option (Got Val))) = .ok none) := by
  constructor
  · intro h
    obtain ⟨g, h1, h2, h3, _⟩ := C42_wrap c (.lvalue v.place : Expr Val)
    exact ⟨g, by simp only [Var.get, Var.getIf, h, if_true, h1, Res.map], h2, h3⟩
  · intro h
    simp only [Var.get, Var.getIf, h, if_false]

example : (⟨[4, 7, 4], some 1, (3, 0)⟩ : Var).get .rvalue 1 = (.ok (some (.rref (3, 0))) : Res (Option (Got Nat))) := by decide

/-- **C44**: `opt::get<T>` on a variant, for a type `T` that occurs exactly once among the alternatives, is engaged exactly if
the active alternative has type `T`, and then refers to it. -/
theorem C44_variant_type (v : Var) (c : Cat) (t : Nat)
    (once : ∃ n : Nat, v.types[n]? = some t ∧ ∀ m : Nat, v.types[m]? = some t → m = n) :
    ((∃ a, v.active = some a ∧ v.types[a]? = some t) → Refers c (.lvalue v.place : Expr Val) (v.getType c t)) ∧
      ((∀ a, v.active = some a → v.types[a]? ≠ some t) → (v.getType c t : Res (Option (Got Val))) = .ok none) := by
  obtain ⟨n, hn, hu⟩ := once
  have hidx : v.types.findIdx (· == t) = n := by
    apply hu
    have hlt : v.types.findIdx (· == t) < v.types.length :=
      List.findIdx_lt_length_of_exists ⟨t, List.mem_of_getElem? hn, by simp⟩
    rw [List.getElem?_eq_getElem hlt]
    have := List.findIdx_getElem (xs := v.types) (p := (· == t)) (w := hlt)
    simp only [beq_iff_eq] at this
    rw [this]
  constructor
  · rintro ⟨a, ha, ht⟩
    have han := hu a ht
    have := (C44_variant_index (Val := Val) v c n).1 (by rw [ha, han])
    simpa only [Var.getType, Var.getIfType, hidx, Var.get] using this
  · intro h
    have := (C44_variant_index (Val := Val) v c n).2 (fun e => h n e hn)
    simpa only [Var.getType, Var.getIfType, hidx, Var.get] using this

example : ∃ n : Nat, (⟨[4, 7, 4], some 1, (3, 0)⟩ : Var).types[n]? = some 7 ∧
    ∀ m : Nat, (⟨[4, 7, 4], some 1, (3, 0)⟩ : Var).types[m]? = some 7 → m = n :=
  ⟨1, rfl, fun m h => by
    match m, h with
    | 0, h => exact absurd h (by decide)
    | 1, _ => rfl
    | 2, h => exact absurd h (by decide)
    | m + 3, h => exact absurd h (by simp)⟩

end Opt
