import Verif.Spec.Suite
import Verif.Props.Calm

/-!
# Running the scripts on plain optional values
-/

namespace Opt.Suite

open Calm

variable {Val : Type} {P : Prog Val} {K : Kit Val}

/-- the values of a script can be given to its options -/
def Legals (P : Prog Val) (s : Script Val) : Prop := ∀ x ∈ s, x.1.Legal P

/-- the plain machine passes -/
def Plain (conv : Nat → Nat → Val → Val) (s : Script Val) : Prop :=
  (run conv nothing (s.map (·.1))).map (·.2) = some (s.map (·.2))

theorem passes (hK : K.OK P) {s : Script Val} (hl : Legals P s) (h : Plain P.convFrom s) : Passes P s := by
  rw [Plain, Option.map_eq_some_iff] at h
  obtain ⟨⟨m, rs⟩, h, rfl⟩ := h
  obtain ⟨w, hr, _, _⟩ := C81_run hK.ok hK.calm (w := Prog.start) (Prog.inv_start) (M := nothing) (fun _ => trivial)
    (ops := s.map (·.1)) (fun op h => by obtain ⟨x, hx, rfl⟩ := List.mem_map.1 h; exact hl x hx) h
  exact ⟨w, hr⟩

theorem set_same (m : Mem Val) (i : Nat) (x : Slot Val) : set m i x i = some x := if_pos rfl
theorem set_other (m : Mem Val) {i a : Nat} (x : Slot Val) (h : a ≠ i) : set m i x a = m a := if_neg h
theorem del_same (m : Mem Val) (i : Nat) : del m i i = none := if_pos rfl
theorem del_other (m : Mem Val) {i a : Nat} (h : a ≠ i) : del m i a = m a := if_neg h

theorem conv_same (hK : K.OK P) {i j : Nat} (h : i % 8 = j % 8) (x : Val) : P.convFrom i j x = x := by
  have : P.cls i = P.cls j := by rw [hK.cls i, hK.cls j, h]
  rw [Prog.convFrom, if_pos this]

theorem elem_mod (hK : K.OK P) (i : Nat) : P.elem i = P.elem (i % 8) := by
  rw [Prog.elem, Prog.elem, hK.cls i]

theorem indexed2 (a b : Nat) : Prog.indexed [a, b] = [(0, a), (1, b)] := rfl
theorem indexed3 (a b c : Nat) : Prog.indexed [a, b, c] = [(0, a), (1, b), (2, c)] := rfl
theorem indexed4 (a b c d : Nat) : Prog.indexed [a, b, c, d] = [(0, a), (1, b), (2, c), (3, d)] := rfl

theorem part_get (hK : K.OK P) (c : Nat) {k : Nat} {xs : List Val} (hx : ∀ y ∈ xs, (P.elem 0).Dom P.pw y) (h : k < xs.length) :
    K.q.part k (K.tup c xs) = xs[k] := hK.part c k xs _ hx (List.getElem?_eq_getElem h)

theorem legals_nil : Legals P [] := fun _ h => by cases h
theorem legals_cons {x : Op Val × Ret Val} {s : Script Val} : Legals P (x :: s) ↔ x.1.Legal P ∧ Legals P s := by simp [Legals]

/-- run a script -/
macro "play" d:ident hK:ident : tactic => `(tactic|
  simp [Plain, run, step, $d:ident, Kit.new, Kit.asg, Kit.asgTmp, Kit.empl, Kit.put, Kit.asgEmpty, Kit.asgCopy, Kit.thenIs, Kit.mapIs, Kit.elseIs, Kit.takeTo,
    Kit.filterIs, Kit.mapOrIs, Kit.mapOrElseIs, Kit.zipTo, Kit.tryPut, Kit.fn1, Kit.fn2, Kit.pick, Kit.is, go, has, hasnt, isNone, gives, gone, look, poke,
    set_same, set_other, del_same, del_other, nothing, source, spent, spend, Slot.engaged, Slot.map, Slot.of, below, allFull, values, vacant,
    unzip, parts, empties, moves, dels, indexed2, indexed3, indexed4, conv_same $hK, ($hK).toInt, ($hK).eqv, ($hK).eqd, ($hK).eqn, ($hK).eqo, ($hK).ne01, ($hK).ne10,
    part_get $hK, ($hK).v])

theorem plain_constructor (hK : K.OK P) : Plain P.convFrom (K.constructor) := by play Kit.constructor hK
theorem plain_inPlace (hK : K.OK P) : Plain P.convFrom (K.inPlace) := by play Kit.inPlace hK
theorem plain_get (hK : K.OK P) : Plain P.convFrom (K.get) := by play Kit.get hK
theorem plain_assignA (hK : K.OK P) : Plain P.convFrom (K.assignA) := by play Kit.assignA hK
theorem plain_assignB (hK : K.OK P) : Plain P.convFrom (K.assignB) := by play Kit.assignB hK
theorem plain_assignC (hK : K.OK P) : Plain P.convFrom (K.assignC) := by play Kit.assignC hK
theorem plain_refAssign (hK : K.OK P) : Plain P.convFrom (K.refAssign) := by play Kit.refAssign hK
theorem plain_reset (hK : K.OK P) : Plain P.convFrom (K.reset) := by play Kit.reset hK
theorem plain_emplace (hK : K.OK P) : Plain P.convFrom (K.emplace) := by play Kit.emplace hK
theorem plain_valueOrThrow (hK : K.OK P) : Plain P.convFrom (K.valueOrThrow) := by play Kit.valueOrThrow hK
theorem plain_valueOr (hK : K.OK P) : Plain P.convFrom (K.valueOr) := by play Kit.valueOr hK
theorem plain_valueOrConstruct (hK : K.OK P) : Plain P.convFrom (K.valueOrConstruct) := by play Kit.valueOrConstruct hK
theorem plain_andThen (hK : K.OK P) : Plain P.convFrom (K.andThen) := by play Kit.andThen hK
theorem plain_map (hK : K.OK P) : Plain P.convFrom (K.map) := by play Kit.map hK
theorem plain_mapRef (hK : K.OK P) : Plain P.convFrom (K.mapRef) := by play Kit.mapRef hK
theorem plain_orElse (hK : K.OK P) : Plain P.convFrom (K.orElse) := by play Kit.orElse hK
theorem plain_take (hK : K.OK P) : Plain P.convFrom (K.take) := by play Kit.take hK
theorem plain_cast (hK : K.OK P) : Plain P.convFrom (K.cast) := by play Kit.cast hK
theorem plain_ptr (hK : K.OK P) : Plain P.convFrom (K.ptr) := by play Kit.ptr hK
theorem plain_filter (hK : K.OK P) : Plain P.convFrom (K.filter) := by play Kit.filter hK
theorem plain_mapOr (hK : K.OK P) : Plain P.convFrom (K.mapOr) := by play Kit.mapOr hK
theorem plain_mapOrElse (hK : K.OK P) : Plain P.convFrom (K.mapOrElse) := by play Kit.mapOrElse hK
theorem plain_takeIf (hK : K.OK P) : Plain P.convFrom (K.takeIf) := by play Kit.takeIf hK
theorem plain_hasValueAnd (hK : K.OK P) : Plain P.convFrom (K.hasValueAnd) := by play Kit.hasValueAnd hK
theorem plain_inspect (hK : K.OK P) : Plain P.convFrom (K.inspect) := by play Kit.inspect hK
theorem plain_unzipTuple (hK : K.OK P) : Plain P.convFrom (K.unzipTuple) := by play Kit.unzipTuple hK
theorem plain_unzipPair (hK : K.OK P) : Plain P.convFrom (K.unzipPair) := by play Kit.unzipPair hK
theorem plain_unzipArray (hK : K.OK P) : Plain P.convFrom (K.unzipArray) := by play Kit.unzipArray hK
theorem plain_loops (hK : K.OK P) : Plain P.convFrom (K.loops) := by play Kit.loops hK
theorem plain_zip (hK : K.OK P) : Plain P.convFrom (K.zip) := by play Kit.zip hK
theorem plain_zipWith (hK : K.OK P) : Plain P.convFrom (K.zipWith) := by play Kit.zipWith hK
theorem plain_fromNullable (hK : K.OK P) : Plain P.convFrom (K.fromNullable) := by play Kit.fromNullable hK
theorem plain_swap (hK : K.OK P) : Plain P.convFrom (K.swap) := by play Kit.swap hK
theorem plain_tryEmplace (hK : K.OK P) : Plain P.convFrom (K.tryEmplace) := by play Kit.tryEmplace hK

theorem fnLegal_look {β : Type} (f : Val → β) (i : Nat) : Prog.Fn.Legal P i (look f) := fun _ h => ⟨h, h⟩
theorem fnLegal_poke {β : Type} {x : Val} {i : Nat} (hx : (P.elem i).Dom P.pw x) (f : Val → β) : Prog.Fn.Legal P i (poke x f) :=
  fun _ h => ⟨hx, h⟩

theorem dom_pick {i n : Nat} {a b : Val} (ha : (P.elem i).Dom P.pw a) (hb : (P.elem i).Dom P.pw b) (x : Val) :
    (P.elem i).Dom P.pw (K.pick n a b x) := by
  unfold Kit.pick
  split
  · exact ha
  · exact hb

theorem retIn {r i : Nat} {f : Val → Val} (h : ∀ x, (P.elem r).Dom P.pw (f x)) : Prog.Fn.RetIn P r (look f) i := fun x _ => h x
theorem retIn_poke {r i : Nat} {y : Val} {f : Val → Val} (h : ∀ x, (P.elem r).Dom P.pw (f x)) : Prog.Fn.RetIn P r (poke y f) i := fun x _ => h x

theorem then_pick {i n : Nat} {a b : Option Val} (ha : ∀ y, a = some y → (P.elem i).Dom P.pw y) (hb : ∀ y, b = some y → (P.elem i).Dom P.pw y)
    (x u : Val) (h : K.pick n a b x = some u) : (P.elem i).Dom P.pw u := by
  unfold Kit.pick at h
  split at h
  · exact ha u h
  · exact hb u h

theorem at8 (hK : K.OK P) : P.elem 8 = P.elem 0 := elem_mod hK 8
theorem at16 (hK : K.OK P) : P.elem 16 = P.elem 0 := elem_mod hK 16
theorem at24 (hK : K.OK P) : P.elem 24 = P.elem 0 := elem_mod hK 24
theorem at32 (hK : K.OK P) : P.elem 32 = P.elem 0 := elem_mod hK 32
theorem at40 (hK : K.OK P) : P.elem 40 = P.elem 0 := elem_mod hK 40
theorem at48 (hK : K.OK P) : P.elem 48 = P.elem 0 := elem_mod hK 48
theorem at56 (hK : K.OK P) : P.elem 56 = P.elem 0 := elem_mod hK 56
theorem at64 (hK : K.OK P) : P.elem 64 = P.elem 0 := elem_mod hK 64
theorem at72 (hK : K.OK P) : P.elem 72 = P.elem 0 := elem_mod hK 72
theorem at80 (hK : K.OK P) : P.elem 80 = P.elem 0 := elem_mod hK 80
theorem at10 (hK : K.OK P) : P.elem 10 = P.elem 2 := elem_mod hK 10
theorem at11 (hK : K.OK P) : P.elem 11 = P.elem 3 := elem_mod hK 11
theorem at14 (hK : K.OK P) : P.elem 14 = P.elem 6 := elem_mod hK 14

theorem parts_legal (hK : K.OK P) {c : Nat} (hc : c = 3 ∨ c = 4 ∨ c = 5) {ps : List (Nat × Nat)} (hp : ∀ p ∈ ps, p.2 % 8 = 0) :
    K.q.Legal P c ps := by
  intro v hv p h
  have := hK.elems c hc v hv p.1
  rw [elem_mod hK p.2, hp p h]
  exact this

/-- the values of a script fit -/
macro "lawful" d:ident hK:ident : tactic => `(tactic|
  simp [legals_cons, legals_nil, $d:ident, Kit.new, Kit.asg, Kit.asgTmp, Kit.empl, Kit.put, Kit.asgEmpty, Kit.asgCopy, Kit.thenIs, Kit.mapIs, Kit.elseIs,
    Kit.takeTo, Kit.filterIs, Kit.mapOrIs, Kit.mapOrElseIs, Kit.zipTo, Kit.tryPut, Kit.is, go, has, hasnt, isNone, gives, gone,
    Op.Legal, Src.Legal, fnLegal_look, fnLegal_poke, retIn, retIn_poke, dom_pick, at8 $hK, at16 $hK, at24 $hK, at32 $hK, at40 $hK, at48 $hK, at56 $hK, at64 $hK,
    at72 $hK, at80 $hK, at10 $hK, at11 $hK, at14 $hK, ($hK).v, ($hK).dflt, ($hK).num, ($hK).nest, ($hK).pair, ($hK).tuple, ($hK).array, ($hK).record])

theorem legal_constructor (hK : K.OK P) : Legals P (K.constructor) := by
  lawful Kit.constructor hK
theorem legal_inPlace (hK : K.OK P) : Legals P (K.inPlace) := by
  lawful Kit.inPlace hK
theorem legal_get (hK : K.OK P) : Legals P (K.get) := by
  lawful Kit.get hK
theorem legal_assignA (hK : K.OK P) : Legals P (K.assignA) := by
  lawful Kit.assignA hK
theorem legal_assignB (hK : K.OK P) : Legals P (K.assignB) := by
  lawful Kit.assignB hK
theorem legal_assignC (hK : K.OK P) : Legals P (K.assignC) := by
  lawful Kit.assignC hK
theorem legal_refAssign (hK : K.OK P) : Legals P (K.refAssign) := by
  lawful Kit.refAssign hK
theorem legal_reset (hK : K.OK P) : Legals P (K.reset) := by
  lawful Kit.reset hK
theorem legal_emplace (hK : K.OK P) : Legals P (K.emplace) := by
  lawful Kit.emplace hK
theorem legal_valueOrThrow (hK : K.OK P) : Legals P (K.valueOrThrow) := by
  lawful Kit.valueOrThrow hK
theorem legal_valueOr (hK : K.OK P) : Legals P (K.valueOr) := by
  lawful Kit.valueOr hK
theorem legal_valueOrConstruct (hK : K.OK P) : Legals P (K.valueOrConstruct) := by
  lawful Kit.valueOrConstruct hK
theorem legal_andThen (hK : K.OK P) : Legals P (K.andThen) := by
  lawful Kit.andThen hK
  refine ⟨fun x u _ h => then_pick ?_ ?_ x u h, fun x u _ h => then_pick ?_ ?_ x u h⟩ <;> simp [hK.num]
theorem legal_map (hK : K.OK P) : Legals P (K.map) := by
  lawful Kit.map hK
theorem legal_mapRef (hK : K.OK P) : Legals P (K.mapRef) := by
  lawful Kit.mapRef hK
theorem legal_orElse (hK : K.OK P) : Legals P (K.orElse) := by
  lawful Kit.orElse hK
theorem legal_take (hK : K.OK P) : Legals P (K.take) := by
  lawful Kit.take hK
theorem legal_cast (hK : K.OK P) : Legals P (K.cast) := by
  lawful Kit.cast hK
theorem legal_ptr (hK : K.OK P) : Legals P (K.ptr) := by
  lawful Kit.ptr hK
theorem legal_filter (hK : K.OK P) : Legals P (K.filter) := by
  lawful Kit.filter hK
theorem legal_mapOr (hK : K.OK P) : Legals P (K.mapOr) := by
  lawful Kit.mapOr hK
theorem legal_mapOrElse (hK : K.OK P) : Legals P (K.mapOrElse) := by
  lawful Kit.mapOrElse hK
theorem legal_takeIf (hK : K.OK P) : Legals P (K.takeIf) := by
  lawful Kit.takeIf hK
theorem legal_hasValueAnd (hK : K.OK P) : Legals P (K.hasValueAnd) := by
  lawful Kit.hasValueAnd hK
theorem legal_inspect (hK : K.OK P) : Legals P (K.inspect) := by
  lawful Kit.inspect hK
theorem legal_unzipTuple (hK : K.OK P) : Legals P (K.unzipTuple) := by
  lawful Kit.unzipTuple hK
  exact parts_legal hK (.inr (.inl rfl)) (by simp [indexed4])
theorem legal_unzipPair (hK : K.OK P) : Legals P (K.unzipPair) := by
  lawful Kit.unzipPair hK
  exact parts_legal hK (.inl rfl) (by simp [indexed2])
theorem legal_unzipArray (hK : K.OK P) : Legals P (K.unzipArray) := by
  lawful Kit.unzipArray hK
  exact parts_legal hK (.inr (.inr rfl)) (by simp [indexed3])
theorem legal_loops (hK : K.OK P) : Legals P (K.loops) := by
  lawful Kit.loops hK
theorem legal_zip (hK : K.OK P) : Legals P (K.zip) := by
  lawful Kit.zip hK
  intro vs h
  cases h with
  | cons hx h =>
    cases h with
    | cons hy h =>
      cases h
      exact hK.pair _ _ hx (at8 hK ▸ hy)
theorem legal_zipWith (hK : K.OK P) : Legals P (K.zipWith) := by
  lawful Kit.zipWith hK
  refine ⟨fun vs h => ?_, fun vs h => ?_⟩
  · cases h with
    | cons hx h =>
      cases h
      exact dom_pick (hK.num _) (hK.num _) _
  · cases h with
    | cons hx h =>
      cases h with
      | cons hy h =>
        cases h
        exact hK.record _ _ _ (dom_pick (hK.v _) (hK.v _) _) (at24 hK ▸ hy)
theorem legal_fromNullable (hK : K.OK P) : Legals P (K.fromNullable) := by
  lawful Kit.fromNullable hK
theorem legal_swap (hK : K.OK P) : Legals P (K.swap) := by
  lawful Kit.swap hK
theorem legal_tryEmplace (hK : K.OK P) : Legals P (K.tryEmplace) := by
  lawful Kit.tryEmplace hK

/-- run a script with comparisons -/
macro "playOrd" d:ident hK:ident hO:ident : tactic => `(tactic|
  simp [Plain, run, step, $d:ident, Kit.fixture, Kit.both, Kit.left, Kit.right, Kit.resultIs, Kit.new, Kit.empl, Kit.put, Kit.is, go, isNone, gives,
    gone, poke, set_same, set_other, del_same, del_other, nothing, source, spent, spend, Slot.engaged, Slot.map, Slot.of, below, conv_same $hK,
    ($hK).v, ($hO).same, ($hO).up, ($hO).down, Kit.means])

/-- the values of a script fit -/
macro "lawfulOrd" d:ident hK:ident : tactic => `(tactic|
  simp [legals_cons, legals_nil, $d:ident, Kit.fixture, Kit.both, Kit.left, Kit.right, Kit.resultIs, Kit.new, Kit.empl, Kit.put, Kit.is, go, isNone,
    gives, gone, Op.Legal, Src.Legal, fnLegal_poke, at8 $hK, at16 $hK, at24 $hK, at32 $hK, ($hK).v])

theorem plain_opEq (hK : K.OK P) (hO : K.Ordered) : Plain P.convFrom (K.opEq) := by playOrd Kit.opEq hK hO
theorem plain_opNe (hK : K.OK P) (hO : K.Ordered) : Plain P.convFrom (K.opNe) := by playOrd Kit.opNe hK hO
theorem plain_opLt (hK : K.OK P) (hO : K.Ordered) : Plain P.convFrom (K.opLt) := by playOrd Kit.opLt hK hO
theorem plain_opLe (hK : K.OK P) (hO : K.Ordered) : Plain P.convFrom (K.opLe) := by playOrd Kit.opLe hK hO
theorem plain_opGt (hK : K.OK P) (hO : K.Ordered) : Plain P.convFrom (K.opGt) := by playOrd Kit.opGt hK hO
theorem plain_opGe (hK : K.OK P) (hO : K.Ordered) : Plain P.convFrom (K.opGe) := by playOrd Kit.opGe hK hO
theorem plain_opOr (hK : K.OK P) (hO : K.Ordered) : Plain P.convFrom (K.opOr) := by playOrd Kit.opOr hK hO
theorem plain_opAnd (hK : K.OK P) (hO : K.Ordered) : Plain P.convFrom (K.opAnd) := by playOrd Kit.opAnd hK hO
theorem plain_opXor (hK : K.OK P) (hO : K.Ordered) : Plain P.convFrom (K.opXor) := by playOrd Kit.opXor hK hO
theorem plain_opOrAssign (hK : K.OK P) (hO : K.Ordered) : Plain P.convFrom (K.opOrAssign) := by playOrd Kit.opOrAssign hK hO
theorem plain_io (hK : K.OK P) (hO : K.Ordered) : Plain P.convFrom (K.io) := by playOrd Kit.io hK hO

theorem legal_opEq (hK : K.OK P) : Legals P (K.opEq) := by lawfulOrd Kit.opEq hK
theorem legal_opNe (hK : K.OK P) : Legals P (K.opNe) := by lawfulOrd Kit.opNe hK
theorem legal_opLt (hK : K.OK P) : Legals P (K.opLt) := by lawfulOrd Kit.opLt hK
theorem legal_opLe (hK : K.OK P) : Legals P (K.opLe) := by lawfulOrd Kit.opLe hK
theorem legal_opGt (hK : K.OK P) : Legals P (K.opGt) := by lawfulOrd Kit.opGt hK
theorem legal_opGe (hK : K.OK P) : Legals P (K.opGe) := by lawfulOrd Kit.opGe hK
theorem legal_opOr (hK : K.OK P) : Legals P (K.opOr) := by lawfulOrd Kit.opOr hK
theorem legal_opAnd (hK : K.OK P) : Legals P (K.opAnd) := by lawfulOrd Kit.opAnd hK
theorem legal_opXor (hK : K.OK P) : Legals P (K.opXor) := by lawfulOrd Kit.opXor hK
theorem legal_opOrAssign (hK : K.OK P) : Legals P (K.opOrAssign) := by lawfulOrd Kit.opOrAssign hK
theorem legal_io (hK : K.OK P) : Legals P (K.io) := by lawfulOrd Kit.io hK

end Opt.Suite
