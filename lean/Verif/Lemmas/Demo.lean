import Verif.Spec.Demo
import Verif.Lemmas.MachineObj

/-!
# The demonstration program satisfies the hypotheses
-/

namespace Opt.Demo

variable {cxx20 : Bool} {thr : Nat → Bool} {clobber : Nat → Bytes → Bytes}

theorem cases4 (i : Nat) : i % 4 = 0 ∨ i % 4 = 1 ∨ i % 4 = 2 ∨ i % 4 = 3 := by omega

theorem elem_eq (i : Nat) : (prog cxx20 thr clobber).elem i = elemOf (i % 4) := rfl

theorem ld_bytes1 (v : Byte) : ld 8 [v] 0 = v := by
  simp only [ld, rd, List.drop_zero]
  simp [leVal]

theorem poly_valid (v : Byte) : Ty.Valid 64 (.polymorphic 16 8) (polyBytes v) := by
  refine ⟨rfl, ?_⟩
  have : ld 64 (polyBytes v) 0 = 0x401000#64 := by
    simp [ld, polyBytes, leBytes, rd, leVal]
  rw [this]; decide

theorem poly_decode (v : Byte) : poly.decode (polyBytes v) = v := rfl

/-- which bytes are values of a class -/
def dom (c : Nat) (v : Byte) : Prop := c = 0 ∨ c = 1 ∨ c = 2 ∨ v = 0 ∨ v = 1

theorem dom_of (c : Nat) {v : Byte} (h : (elemOf c).Dom 64 v) : dom c v := by
  match c with
  | 0 => exact .inl rfl
  | 1 => exact .inr (.inl rfl)
  | 2 => exact .inr (.inr (.inl rfl))
  | c + 3 =>
    obtain ⟨bs, ⟨h1, h2⟩, rfl⟩ := h
    match bs, h1 with
    | [b], _ =>
      rw [ld_bytes1] at h2
      exact .inr (.inr (.inr h2))

theorem valid_bytes {c : Nat} (hc : c < 4) {v : Byte} (h : dom c v) :
    (elemOf c).T.Valid 64 (bytesOf c v) ∧ (elemOf c).decode (bytesOf c v) = v := by
  match c, hc with
  | 0, _ => exact ⟨rfl, rfl⟩
  | 1, _ => exact ⟨poly_valid v, rfl⟩
  | 2, _ => exact ⟨rfl, rfl⟩
  | 3, _ =>
    have : v = 0 ∨ v = 1 := by
      rcases h with h | h | h | h
      · omega
      · omega
      · omega
      · exact h
    exact ⟨⟨rfl, by simp only [bytesOf]; rw [if_neg (by decide), ld_bytes1]; exact this⟩, rfl⟩

theorem dom_iff {c : Nat} (hc : c < 4) {v : Byte} : (elemOf c).Dom 64 v ↔ dom c v :=
  ⟨dom_of c, fun h => ⟨_, valid_bytes hc h⟩⟩

theorem dom_mk (c : Nat) {v : Byte} (h : dom c v) : (elemOf c).Dom 64 v := by
  by_cases hc : c < 4
  · exact (dom_iff hc).2 h
  · have h3 : (elemOf 3).Dom 64 v := (dom_iff (by decide)).2 (by
      rcases h with h | h | h | h
      · omega
      · omega
      · omega
      · exact .inr (.inr (.inr h)))
    match c, hc with
    | c + 4, _ => exact h3

theorem wf_plain : (Ty.option (.plain 1 1)).WF 64 := ⟨trivial, by decide, fun h => absurd h (by decide)⟩
theorem wf_poly : (Ty.option (.polymorphic 16 8)).WF 64 := ⟨by show 64 / 8 ≤ 16; decide, by decide, fun _ => by decide⟩
theorem wf_bool : (Ty.option .bool).WF 64 := ⟨trivial, by decide, fun _ => by decide⟩

theorem ok (hc : ∀ c (old : Bytes), old.length = (elemOf c).T.size 64 → (clobber c old).length = (elemOf c).T.size 64) :
    (prog cxx20 thr clobber).OK where
  pw := .inr rfl
  wf := fun c => by
    match c with
    | 0 => exact wf_plain
    | 1 => exact wf_poly
    | 2 => exact wf_plain
    | c + 3 => exact wf_bool
  size := fun c => by
    match c with
    | 0 => show 1 ≤ Ty.size 64 (.plain 1 1); decide
    | 1 => show 1 ≤ Ty.size 64 (.polymorphic 16 8); decide
    | 2 => show 1 ≤ Ty.size 64 (.plain 1 1); decide
    | c + 3 => show 1 ≤ Ty.size 64 .bool; decide
  tcc_td := fun c => by
    match c with
    | 0 => exact fun h => by cases h
    | 1 => exact fun h => by cases h
    | 2 => exact fun _ => rfl
    | c + 3 => exact fun _ => rfl
  tmc_td := fun c => by
    match c with
    | 0 => exact fun h => by cases h
    | 1 => exact fun h => by cases h
    | 2 => exact fun _ => rfl
    | c + 3 => exact fun _ => rfl
  scalar := fun c => by
    match c with
    | 0 => exact fun h => by cases h
    | 1 => exact fun h => by cases h
    | 2 => exact fun _ => ⟨rfl, rfl, rfl, rfl, rfl⟩
    | c + 3 => exact fun _ => ⟨rfl, rfl, rfl, rfl, rfl⟩
  garbage := fun i n => by
    rw [elem_eq]
    show (List.replicate (storage (i % 4)) _).length = _
    rcases cases4 i with h | h | h | h <;> rw [h]
    · show _ = Ty.size 64 (.option (.plain 1 1)); decide
    · show _ = Ty.size 64 (.option (.polymorphic 16 8)); decide
    · show _ = Ty.size 64 (.option (.plain 1 1)); decide
    · show _ = Ty.size 64 (.option .bool); decide
  build := fun i n v old hv _ => valid_bytes (Nat.mod_lt _ (by decide)) (dom_of _ hv)
  partial_ := fun i k n old h => hc _ old h
  dead := fun i n old h => h
  moved := fun f i n v _ => dom_mk _ (.inr (.inr (.inr (.inl rfl))))
  selfMoved := fun i n v h => h
  broken := fun i n u v _ h => h
  conv := fun c d v _ => dom_mk c (by
    show dom c (if c = 0 ∨ c = 1 ∨ c = 2 then v else v &&& 1)
    by_cases h : c = 0 ∨ c = 1 ∨ c = 2
    · rcases h with h | h | h
      · exact .inl h
      · exact .inr (.inl h)
      · exact .inr (.inr (.inl h))
    · rw [if_neg h]
      exact .inr (.inr (.inr (by
        have : ∀ v : Byte, v &&& 1 = 0 ∨ v &&& 1 = 1 := by decide
        exact this v))))

theorem ok_tidy : (prog cxx20 thr tidy).OK := ok fun _ _ h => h

theorem ok_vptr : (prog cxx20 thr vptrFirst).OK := ok fun c old h => by
  simp only [vptrFirst]
  by_cases hc : c = 1
  · subst hc
    have h' : old.length = 16 := h
    simp only [if_true, List.length_append, leBytes_length, List.length_drop, h']; rfl
  · rw [if_neg hc]; exact h

theorem balanced : (prog cxx20 thr clobber).Balanced := fun c => by
  match c with
  | 0 => exact .inr (.inl rfl)
  | 1 => exact .inr (.inl rfl)
  | 2 => exact .inr (.inr rfl)
  | c + 3 => exact .inr (.inr rfl)

theorem throwSafe_tidy : (prog cxx20 thr tidy).ThrowSafe := fun _ _ _ _ _ _ _ _ _ h => h

theorem ok_lent : lent.OK where
  pw := .inr rfl
  wf := fun _ => wf_plain
  size := fun _ => by show 1 ≤ Ty.size 64 (.plain 1 1); decide
  tcc_td := fun _ => nofun
  tmc_td := fun _ => nofun
  scalar := fun _ => nofun
  garbage := fun _ _ => by show List.length [0xAA#8, 0xAA#8] = Ty.size 64 (.option (.plain 1 1)); decide
  build := fun _ _ _ _ _ _ => ⟨rfl, rfl⟩
  partial_ := fun _ _ _ _ h => h
  dead := fun _ _ _ h => h
  moved := fun _ _ _ _ _ => ⟨[0], rfl, rfl⟩
  selfMoved := fun _ _ _ h => h
  broken := fun _ _ _ _ _ h => h
  conv := fun _ _ v _ => ⟨[if _ then v else _], rfl, rfl⟩

theorem ok_lent17 : (lent17 thr).OK where
  pw := .inr rfl
  wf := fun _ => wf_plain
  size := fun _ => by show 1 ≤ Ty.size 64 (.plain 1 1); decide
  tcc_td := fun _ => nofun
  tmc_td := fun _ => nofun
  scalar := fun _ => nofun
  garbage := fun _ _ => by show List.length [0xAA#8, 0xAA#8] = Ty.size 64 (.option (.plain 1 1)); decide
  build := fun _ _ _ _ _ _ => ⟨rfl, rfl⟩
  partial_ := fun _ _ _ _ h => h
  dead := fun _ _ _ h => h
  moved := fun _ _ _ _ _ => ⟨[0], rfl, rfl⟩
  selfMoved := fun _ _ _ h => h
  broken := fun _ _ _ _ _ h => h
  conv := fun _ _ v _ => ⟨[if _ then v else _], rfl, rfl⟩

theorem balanced_lent17 : (lent17 thr).Balanced := fun _ => .inr (.inl rfl)

end Opt.Demo
