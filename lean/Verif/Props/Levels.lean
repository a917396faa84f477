import Verif.Lemmas.Nested
import Verif.Spec.Layout

/-!
# C01-C05: levels, nesting, sizes, composites
-/

namespace Opt

/-! ## C01 Empty levels round-trip -/

/-- a non-trivial type used in the examples: `std::pair<double, std::tuple<bool, int*>>` wrapped in `option` twice -/
def sampleTy : Ty :=
  .option (.option (.pair 24 8 0 (.float64 true 8) 8 (.tuple 16 8 (.cons 0 .bool (.cons 8 .pointer .nil)))))

theorem sampleTy_wf : sampleTy.WF 64 := by simp [sampleTy, Ty.WF, Fields.WF]; decide
theorem sampleTy_exact : sampleTy.Exact := by simp [sampleTy, Ty.Exact, Fields.Exact]

example : (sampleTy.traits 64).maxLevel = 510 ∧ sampleTy.size 64 = 24 ∧ sampleTy.align 64 = 8 := ⟨rfl, rfl, rfl⟩

/-- C01 (partial: `Exact` excludes a `PADDING` member narrower than `int` and reflected enums over `bool`, for which the
claim is false, see the two `violated` theorems). Any level below `max_level` that is written into any prior contents is
the level that is read back. -/
theorem C01_levels_roundtrip_partial {pw : Nat} (hpw : pw = 32 ∨ pw = 64) (T : Ty) (hwf : T.WF pw) (hex : T.Exact)
    (bs : Bytes) (hbs : bs.length = T.size pw) (l : U64) (hl : l.toNat < (T.traits pw).maxLevel) :
    ∃ bs', (T.traits pw).setLevel bs l = .ok bs' ∧ bs'.length = T.size pw ∧ (T.traits pw).getLevel bs' = l :=
  (Ty.lawOK hpw T hwf).roundtrip bs l hbs (by rw [Ty.cap_eq_maxLevel T hwf hex]; exact hl)

example : ∃ bs', (sampleTy.traits 64).setLevel (List.replicate 24 0xAB) 509 = .ok bs' ∧ bs'.length = 24 ∧
    (sampleTy.traits 64).getLevel bs' = 509 :=
  C01_levels_roundtrip_partial (.inr rfl) sampleTy sampleTy_wf sampleTy_exact _ rfl 509 (by decide)

/-- C01, all well-formed types: the first `cap` levels work, where `cap` is `max_level` for `Exact` types. -/
theorem C01_levels_roundtrip_upto_cap {pw : Nat} (hpw : pw = 32 ∨ pw = 64) (T : Ty) (hwf : T.WF pw)
    (bs : Bytes) (hbs : bs.length = T.size pw) (l : U64) (hl : l.toNat < T.cap pw) :
    ∃ bs', (T.traits pw).setLevel bs l = .ok bs' ∧ bs'.length = T.size pw ∧ (T.traits pw).getLevel bs' = l :=
  (Ty.lawOK hpw T hwf).roundtrip bs l hbs hl

/-- a `std::uint8_t PADDING` member at offset 5: the last level that works -/
example : ∃ bs', ((Ty.padding 8 4 5 8).traits 64).setLevel (List.replicate 8 7) 254 = .ok bs' ∧ bs'.length = 8 ∧
    ((Ty.padding 8 4 5 8).traits 64).getLevel bs' = 254 :=
  C01_levels_roundtrip_upto_cap (.inr rfl) (.padding 8 4 5 8) (by simp [Ty.WF]) _ rfl 254 (by decide)

/-- C01: different levels are stored as different bytes, whatever was there before. -/
theorem C01_levels_distinct {pw : Nat} (hpw : pw = 32 ∨ pw = 64) (T : Ty) (hwf : T.WF pw) (hex : T.Exact)
    (bs1 bs2 : Bytes) (h1 : bs1.length = T.size pw) (h2 : bs2.length = T.size pw) (l1 l2 : U64)
    (hl1 : l1.toNat < (T.traits pw).maxLevel) (hl2 : l2.toNat < (T.traits pw).maxLevel) (hne : l1 ≠ l2) :
    (T.traits pw).setLevel bs1 l1 ≠ (T.traits pw).setLevel bs2 l2 := by
  obtain ⟨a, ha, _, ga⟩ := C01_levels_roundtrip_partial hpw T hwf hex bs1 h1 l1 hl1
  obtain ⟨b, hb, _, gb⟩ := C01_levels_roundtrip_partial hpw T hwf hex bs2 h2 l2 hl2
  rw [ha, hb]
  intro h
  cases h
  exact hne (ga.symm.trans gb)

example : (sampleTy.traits 64).setLevel (List.replicate 24 0) 0 ≠ (sampleTy.traits 64).setLevel (List.replicate 24 9) 509 :=
  C01_levels_distinct (.inr rfl) sampleTy sampleTy_wf sampleTy_exact _ _ rfl rfl 0 509 (by decide) (by decide) (by decide)

/-- C01 is violated by a `std::uint8_t PADDING` member: level 255 is below `max_level` and reads back as the level of a
live value (option.hpp 1503: `~member_type(0)` is computed in `int`). -/
theorem C01_violated_by_narrow_padding :
    ∃ (T : Ty) (bs bs' : Bytes) (l : U64), T.WF 64 ∧ bs.length = T.size 64 ∧ l.toNat < (T.traits 64).maxLevel ∧
      (T.traits 64).setLevel bs l = .ok bs' ∧ (T.traits 64).getLevel bs' ≠ l ∧ T.Valid 64 bs' :=
  ⟨.padding 8 4 5 8, List.replicate 8 7, [7, 7, 7, 7, 7, 0, 7, 7], 255,
    by simp [Ty.WF], by decide, by decide, by rfl, by decide, by
      simp only [Ty.Valid]; exact ⟨rfl, by decide⟩⟩

/-- C01 is violated by `enum class E : bool { a }`: 255 levels are advertised, but a `bool` only stores one. -/
theorem C01_violated_by_bool_enum :
    ∃ (bs bs' : Bytes) (l : U64), bs.length = Ty.enumBool.size 64 ∧ l.toNat < (Ty.enumBool.traits 64).maxLevel ∧
      (Ty.enumBool.traits 64).setLevel bs l = .ok bs' ∧ (Ty.enumBool.traits 64).getLevel bs' ≠ l := by
  refine ⟨[0], [1], 1, rfl, ?_, ?_, ?_⟩ <;> simp only [Ty.traits, Ty.sizeTraits, maxEnumValue_bool] <;> decide

/-! ## C02 No live value looks empty -/

/-- C02: a live value reports a level of at least `max_level`. -/
theorem C02_live_level_high {pw : Nat} (hpw : pw = 32 ∨ pw = 64) (T : Ty) (hwf : T.WF pw) (v : Bytes)
    (hv : T.Valid pw v) : (T.traits pw).maxLevel ≤ ((T.traits pw).getLevel v).toNat :=
  let h := Ty.lawOK hpw T hwf
  h.high v (h.size_eq v hv) hv

/-- a live `std::pair<void*, bool>` with indeterminate padding bytes -/
theorem pairSample_valid : (Ty.pair 16 8 0 .pointer 8 .bool).Valid 64 [0,16,0,0,0,0,0,0, 1, 9,9,9,9,9,9,9] := by
  simp only [Ty.Valid]; decide

example : 512 ≤ (((Ty.pair 16 8 0 .pointer 8 .bool).traits 64).getLevel [0,16,0,0,0,0,0,0, 1, 9,9,9,9,9,9,9]).toNat :=
  C02_live_level_high (.inr rfl) (.pair 16 8 0 .pointer 8 .bool) (by simp [Ty.WF]; decide) _ pairSample_valid

/-- C02: an option into which a live value was stored, over whatever bytes, has a value, and it is that value. -/
theorem C02_engaged_has_value {pw : Nat} (hpw : pw = 32 ∨ pw = 64) (T : Ty) (hwf : (Ty.option T).WF pw)
    (g v : Bytes) (hg : g.length = (Ty.option T).size pw) (hv : T.Valid pw v) :
    T.hasValue pw (T.storeValue pw g v) = true ∧ T.payload pw (T.storeValue pw g v) = v :=
  let h := storeValue_spec hpw hwf hg hv
  ⟨h.1, h.2.1⟩

example : (Ty.pair 16 8 0 .pointer 8 .bool).hasValue 64 ((Ty.pair 16 8 0 .pointer 8 .bool).storeValue 64
    (List.replicate 16 0xFF) [0,16,0,0,0,0,0,0, 1, 9,9,9,9,9,9,9]) = true :=
  (C02_engaged_has_value (.inr rfl) (.pair 16 8 0 .pointer 8 .bool) (by simp [Ty.WF]; decide) _ _ rfl
    pairSample_valid).1

/-- C02: replacing the contained value of an engaged option by any live value (through the reference `get()` returns)
leaves it engaged. -/
theorem C02_write_through_keeps_engaged {pw : Nat} (hpw : pw = 32 ∨ pw = 64) (T : Ty) (hwf : (Ty.option T).WF pw)
    (g v : Bytes) (hg : (Ty.option T).Valid pw g) (he : T.hasValue pw g = true) (hv : T.Valid pw v) :
    T.hasValue pw (wr g 0 v) = true ∧ T.payload pw (wr g 0 v) = v :=
  let h := inPlace_spec hpw hwf hg he hv
  ⟨h.1, h.2.1⟩

/-- live `option<bool>` and `option<option<bool>>` objects that hold a `bool` -/
theorem boolSample_valid (b : Byte) (hb : b = 0 ∨ b = 1) : (Ty.option .bool).Valid 64 [b] ∧ (nest 2 Ty.bool).Valid 64 [b] := by
  have h1 : Ty.bool.Valid 64 [b] := by simp only [Ty.Valid]; rcases hb with rfl | rfl <;> decide
  have h2 : (Ty.option .bool).Valid 64 [b] := by
    rw [Ty.Valid]; exact ⟨rfl, fun h => absurd h (by decide), fun _ => h1⟩
  exact ⟨h2, by
    simp only [nest]; rw [Ty.Valid]; exact ⟨rfl, fun h => absurd h (by decide), fun _ => h2⟩⟩

/-- an engaged `option<bool>` holding `false`, then assigned `true` through `*o` -/
example : Ty.bool.hasValue 64 (wr [0] 0 [1]) = true ∧ Ty.bool.payload 64 (wr [0] 0 [1]) = [1] :=
  C02_write_through_keeps_engaged (.inr rfl) .bool (by simp [Ty.WF, Ty.align]; decide) [0] [1]
    (boolSample_valid 0 (.inl rfl)).1 (by decide) (by simp only [Ty.Valid]; decide)

/-- C02: so does every option nested around it, to any depth. -/
theorem C02_nested_has_value {pw : Nat} (hpw : pw = 32 ∨ pw = 64) (T : Ty) (n : Nat) (hwf : (nest n T).WF pw)
    (g v : Bytes) (hg : g.length = (nest n T).size pw) (hv : T.Valid pw v) :
    engagedDepth pw n T (storeAll pw n T g v) = n ∧ innermost pw n T (storeAll pw n T g v) = v :=
  let h := storeAll_spec hpw hv n hwf g hg
  ⟨h.2.1, h.2.2⟩

/-- five options around the pair -/
example : engagedDepth 64 5 (.pair 16 8 0 .pointer 8 .bool) (storeAll 64 5 (.pair 16 8 0 .pointer 8 .bool)
    (List.replicate 16 0xFF) [0,16,0,0,0,0,0,0, 1, 9,9,9,9,9,9,9]) = 5 :=
  (C02_nested_has_value (.inr rfl) (.pair 16 8 0 .pointer 8 .bool) 5
    (nest_wf (by simp [Ty.WF]; decide) (by decide) (by simp [Ty.Exact]) 5) _ _ rfl pairSample_valid).1

/-! ## C03 Nested options of any depth keep all states apart -/

/-- C03: the theorems below are about nested options whose layers have enough working levels, `(nest n T).WF`.  That holds
to any depth for types whose advertised levels all work (everything but the two kinds of types excluded by `Exact`). -/
theorem C03_any_depth {pw : Nat} (T : Ty) (hwf : T.WF pw) (hal : 0 < T.align pw) (hex : T.Exact) (n : Nat) :
    (nest n T).WF pw := nest_wf hwf hal hex n

example : (nest 1000 Ty.bool).WF 64 := C03_any_depth .bool (by simp [Ty.WF]) (by decide) (by simp [Ty.Exact]) 1000

/-- C03: for the other types it holds as long as there are not more layers than working levels (one for
`enum class E : bool`, 255 for a `PADDING` byte). -/
theorem C03_enough_levels {pw : Nat} (hpw : pw = 32 ∨ pw = 64) (T : Ty) (hwf : T.WF pw) (hal : 0 < T.align pw) (n : Nat)
    (hn : n ≤ T.cap pw) : (nest n T).WF pw := (nest_cap hpw hwf hal n hn).1

/-- a `PADDING` byte in a pair, 255 layers -/
example : (nest 255 (.pair 12 4 0 (.padding 8 4 5 8) 8 (.plain 4 4))).WF 64 :=
  C03_enough_levels (.inr rfl) _ (by simp [Ty.WF, Ty.size, Ty.sizeTraits]) (by decide) 255 (by decide)

/-- C03 (partial: needs as many working levels as layers, see `C03_violated_by_bool_enum`): building "k outer layers
engaged, the next one empty" in any storage succeeds and is read back as exactly that. -/
theorem C03_none_at_depth_partial {pw : Nat} (hpw : pw = 32 ∨ pw = 64) (T : Ty) (n k : Nat)
    (hwf : (nest n T).WF pw) (hk : k < n) (g : Bytes)
    (hg : g.length = (nest n T).size pw) :
    ∃ bs, storeNoneAt pw n k T g = .ok bs ∧ bs.length = (nest n T).size pw ∧ engagedDepth pw n T bs = k := by
  obtain ⟨bs, h1, h2, h3⟩ := storeNoneAt_spec hpw n k hwf hk g hg
  exact ⟨bs, h1, (Ty.lawOK hpw _ hwf).size_eq _ h2, h3⟩

/-- 400 options around a `bool`, more than its 254 levels; the 300 outer layers engaged, the next empty -/
example (g : Bytes) (hg : g.length = (nest 400 Ty.bool).size 64) :
    ∃ bs, storeNoneAt 64 400 300 .bool g = .ok bs ∧ bs.length = (nest 400 Ty.bool).size 64 ∧
      engagedDepth 64 400 .bool bs = 300 :=
  C03_none_at_depth_partial (.inr rfl) .bool 400 300
    (C03_any_depth .bool (by simp [Ty.WF]) (by decide) (by simp [Ty.Exact]) 400) (by decide) g hg

/-- C03 (partial: as above): resetting the layer at depth `k` of a live nested option whose `k` outer layers are engaged
makes exactly the `k` outer layers engaged; the outer layers' own storage is not rewritten. -/
theorem C03_reset_at_depth_partial {pw : Nat} (hpw : pw = 32 ∨ pw = 64) (T : Ty) (n k : Nat)
    (hwf : (nest n T).WF pw) (hk : k < n) (g : Bytes) (hg : (nest n T).Valid pw g)
    (hd : k ≤ engagedDepth pw n T g) :
    ∃ bs, resetAt pw n k T g = .ok bs ∧ (nest n T).Valid pw bs ∧ engagedDepth pw n T bs = k :=
  resetAt_spec hpw n k hwf hk g hg hd

/-- `option<option<bool>>` holding `true`; reset of the inner layer -/
example : ∃ bs, resetAt 64 2 1 .bool [1] = .ok bs ∧ (nest 2 Ty.bool).Valid 64 bs ∧ engagedDepth 64 2 .bool bs = 1 :=
  C03_reset_at_depth_partial (.inr rfl) .bool 2 1
    (C03_any_depth .bool (by simp [Ty.WF]) (by decide) (by simp [Ty.Exact]) 2) (by decide) [1]
    (boolSample_valid 1 (.inr rfl)).2 (by decide)

/-- C03: every live nested option is in one of the `n + 1` states, and if all layers are engaged the
innermost object is a live `T`. -/
theorem C03_states {pw : Nat} (T : Ty) (n : Nat) (g : Bytes) (hg : (nest n T).Valid pw g) :
    engagedDepth pw n T g < n ∨ (engagedDepth pw n T g = n ∧ T.Valid pw (innermost pw n T g)) := by
  rcases Nat.lt_or_ge (engagedDepth pw n T g) n with h | h
  · exact .inl h
  · have := engagedDepth_le (pw := pw) (T := T) n g
    have he : engagedDepth pw n T g = n := by omega
    exact .inr ⟨he, innermost_valid n g hg he⟩

example : engagedDepth 64 2 .bool [1] < 2 ∨ (engagedDepth 64 2 .bool [1] = 2 ∧ Ty.bool.Valid 64 (innermost 64 2 .bool [1])) :=
  C03_states .bool 2 [1] (boolSample_valid 1 (.inr rfl)).2

/-- C03 is violated for `enum class E : bool { a }`: an `option<option<E>>` that was made empty reports a value. -/
theorem C03_violated_by_bool_enum :
    ∃ bs, storeNoneAt 64 2 0 .enumBool [0] = .ok bs ∧ engagedDepth 64 2 .enumBool bs ≠ 0 := by
  refine ⟨[1], ?_, ?_⟩
  · simp only [storeNoneAt, nest, Ty.storeNone, option_traits_eq, optionTraits]
    simp only [Ty.traits, Ty.size, Ty.sizeTraits, maxEnumValue_bool]
    decide
  · simp only [engagedDepth, nest, Ty.hasValue, option_traits_eq, optionTraits, Ty.payload]
    simp only [Ty.traits, Ty.size, Ty.sizeTraits, maxEnumValue_bool]
    decide

/-! ## C04 Sizes -/

theorem roundTo_least {n a : Nat} (ha : 0 < a) : IsLeastMultiple a n (roundTo n a) := by
  refine ⟨⟨(n + a - 1) / a, by rw [roundTo, Nat.mul_comm]⟩, roundTo_ge n ha, ?_⟩
  rintro m ⟨c, rfl⟩ hm
  rw [roundTo, Nat.mul_comm]
  apply Nat.mul_le_mul_left
  have : n + a - 1 < a * c + a := by omega
  have h2 : n + a - 1 < a * (c + 1) := by rw [Nat.mul_add]; omega
  have := (Nat.div_lt_iff_lt_mul ha).2 (by rw [Nat.mul_comm]; exact h2)
  omega

/-- C04: `option<T>` is as big as `T` exactly when `T` has levels; otherwise its size is the least multiple of the
alignment with room for one more byte. -/
theorem C04_size {pw : Nat} (T : Ty) (hal : 0 < T.align pw) :
    ((Ty.option T).size pw = T.size pw ↔ 0 < (T.traits pw).maxLevel) ∧
    ((T.traits pw).maxLevel = 0 → IsLeastMultiple (T.align pw) (T.size pw + 1) ((Ty.option T).size pw)) := by
  constructor
  · by_cases hm : (T.traits pw).maxLevel ≥ 1
    · rw [option_size_avail hm]; simp; omega
    · rw [option_size_flag hm]
      have := roundTo_ge (T.size pw + 1) hal
      omega
  · intro h
    rw [option_size_flag (by omega)]
    exact roundTo_least hal

/-- a 12-byte type of alignment 4 without levels; `sampleTy` with levels -/
example : IsLeastMultiple 4 13 ((Ty.option (.plain 12 4)).size 64) ∧ (Ty.option sampleTy).size 64 = 24 :=
  ⟨(C04_size (pw := 64) (.plain 12 4) (by decide)).2 rfl, (C04_size (pw := 64) sampleTy (by decide)).1.2 (by decide)⟩

/-- C04: if `sizeof(T)` is a multiple of the alignment (as in C++), the flag costs exactly one alignment unit. -/
theorem C04_flag_cost {pw : Nat} (T : Ty) (hal : 0 < T.align pw) (hd : T.align pw ∣ T.size pw)
    (h0 : (T.traits pw).maxLevel = 0) : (Ty.option T).size pw = T.size pw + T.align pw := by
  obtain ⟨h1, h2, h3⟩ := (C04_size T hal).2 h0
  obtain ⟨c, hc⟩ := hd
  have hle := h3 (T.size pw + T.align pw) ⟨c + 1, by rw [hc, Nat.mul_add]; omega⟩ (by omega)
  obtain ⟨d, hd⟩ := h1
  rw [hd] at h2 hle ⊢
  rw [hc] at h2 hle ⊢
  have e : T.align pw * c + T.align pw = T.align pw * (c + 1) := by rw [Nat.mul_add]; omega
  rw [e] at hle ⊢
  have h4 : c < d := by
    apply Nat.lt_of_mul_lt_mul_left (a := T.align pw); omega
  have h5 : d ≤ c + 1 := Nat.le_of_mul_le_mul_left hle hal
  rw [show d = c + 1 by omega]

example : (Ty.option (.plain 12 4)).size 64 = 16 := C04_flag_cost (pw := 64) (.plain 12 4) (by decide) (by decide) rfl

/-- C04: whatever arrays, complex numbers and options are made of a type, the alignment stays the same, and the size stays a multiple of it that is
no less than that of the type: the elements of an array of options are aligned, with or without a flag. -/
theorem C04_alignment {pw : Nat} {T W : Ty} (hal : 0 < T.align pw) (hd : T.align pw ∣ T.size pw) (h : Around T W) :
    W.align pw = T.align pw ∧ T.align pw ∣ W.size pw ∧ T.size pw ≤ W.size pw := by
  induction h with
  | refl => exact ⟨rfl, hd, Nat.le_refl _⟩
  | @array W n _ ih =>
    refine ⟨ih.1, ?_⟩
    have e : (Ty.array W (n + 1)).size pw = (n + 1) * W.size pw := rfl
    rw [e]
    exact ⟨Nat.dvd_trans ih.2.1 (Nat.dvd_mul_left _ _), Nat.le_trans ih.2.2 (Nat.le_mul_of_pos_left _ (by omega))⟩
  | @complex W _ ih =>
    refine ⟨ih.1, ?_⟩
    have e : (Ty.complex W).size pw = 2 * W.size pw := rfl
    rw [e]
    exact ⟨Nat.dvd_trans ih.2.1 (Nat.dvd_mul_left _ _), Nat.le_trans ih.2.2 (Nat.le_mul_of_pos_left _ (by omega))⟩
  | enforce _ ih => exact ih
  | @option W _ ih =>
    refine ⟨ih.1, ?_⟩
    by_cases hm : (W.traits pw).maxLevel ≥ 1
    · rw [option_size_avail hm]; exact ih.2
    · rw [option_size_flag hm, ih.1]
      obtain ⟨h1, h2, _⟩ := roundTo_least (n := W.size pw + 1) hal
      exact ⟨h1, Nat.le_trans ih.2.2 (by omega)⟩

/-- an array of three options of complex numbers of a type of 12 bytes with alignment 4 -/
example : (Ty.array (.option (.complex (.plain 12 4))) 3).align 64 = 4 ∧ 4 ∣ (Ty.array (.option (.complex (.plain 12 4))) 3).size 64 :=
  have h := C04_alignment (pw := 64) (T := .plain 12 4) (by decide) (by decide) (.array 2 (.option (.complex .refl)))
  ⟨h.1, h.2.1⟩

/-- C04: a further option around a flag-based option is free, 254 times over. -/
theorem C04_nested_flag_free {pw : Nat} (T : Ty) (h0 : (T.traits pw).maxLevel = 0) (n : Nat) (hn : n ≤ 254) :
    (nest (n + 1) T).size pw = (Ty.option T).size pw ∧ ((nest (n + 1) T).traits pw).maxLevel = 254 - n := by
  induction n with
  | zero =>
    refine ⟨rfl, ?_⟩
    simp only [nest, option_traits_eq, optionTraits, h0]; rfl
  | succ n ih =>
    obtain ⟨i1, i2⟩ := ih (by omega)
    have hm : ((nest (n + 1) T).traits pw).maxLevel ≥ 1 := by omega
    constructor
    · rw [nest, option_size_avail hm, i1]
    · rw [nest, option_traits_eq, optionTraits, if_pos hm, availableOptionTraits]; simp only [i2]; omega

/-- C04: around a type with `max_level` levels, that many further layers are free. -/
theorem C04_nested_levels_free {pw : Nat} (T : Ty) (n : Nat) (hn : n ≤ (T.traits pw).maxLevel) :
    (nest n T).size pw = T.size pw ∧ ((nest n T).traits pw).maxLevel ≥ (T.traits pw).maxLevel - n := by
  have key : (nest n T).size pw = T.size pw ∧
      (n < (T.traits pw).maxLevel + 1 → ((nest n T).traits pw).maxLevel = (T.traits pw).maxLevel - n) := by
    induction n with
    | zero => exact ⟨rfl, fun _ => rfl⟩
    | succ n ih =>
      obtain ⟨i1, i2⟩ := ih (by omega)
      have i2 := i2 (by omega)
      have hm : ((nest n T).traits pw).maxLevel ≥ 1 := by omega
      constructor
      · rw [nest, option_size_avail hm, i1]
      · intro _
        rw [nest, option_traits_eq, optionTraits, if_pos hm, availableOptionTraits]; simp only [i2]; omega
  exact ⟨key.1, by rw [key.2 (by omega)]; exact Nat.le_refl _⟩

example : (Ty.option (.plain 4 4)).size 64 = 8 ∧ (nest 255 (.plain 4 4)).size 64 = 8 ∧
    (Ty.option .pointer).size 64 = 8 :=
  ⟨by decide, (C04_nested_flag_free (.plain 4 4) rfl 254 (by decide)).1, by decide⟩

/-- The sentinel levels run out and the library falls back to a flag: `bool` has 254 levels, so the 255th layer adds a
byte, which then serves 254 more layers. The theorems C03 cover all of them. -/
example : (nest 254 Ty.bool).size 64 = 1 ∧ (nest 255 Ty.bool).size 64 = 2 ∧ (nest 256 Ty.bool).size 64 = 2 := by
  have h := C04_nested_levels_free (pw := 64) Ty.bool 254 (by decide)
  have hal : (nest 254 Ty.bool).align 64 = 1 := nest_align 64 .bool 254
  have h0 : ((nest 254 Ty.bool).traits 64).maxLevel = 0 := by
    have key : ∀ n, n ≤ 254 → ((nest n Ty.bool).traits 64).maxLevel = 254 - n := by
      intro n hn
      induction n with
      | zero => rfl
      | succ n ih =>
        have i := ih (by omega)
        rw [nest, option_traits_eq, optionTraits, if_pos (by omega), availableOptionTraits]
        simp only [i]; omega
    exact key 254 (Nat.le_refl _)
  have h1 : (nest 254 Ty.bool).size 64 = 1 := h.1
  have h2 : (Ty.option (nest 254 Ty.bool)).size 64 = 2 := by
    rw [C04_flag_cost _ (by rw [hal]; decide) (by rw [hal]; exact ⟨_, (Nat.one_mul _).symm⟩) h0, h1, hal]
  exact ⟨h1, h2, by
    have := (C04_nested_flag_free (pw := 64) (nest 254 Ty.bool) h0 1 (by decide)).1
    exact this.trans h2⟩

/-! ## C05 Composite types use a member with the most spare levels -/

theorem atField_sameOutside {off n : Nat} {t : Traits} {bs bs' b : Bytes} {l : U64} (hN : off + n ≤ bs.length)
    (hset : (atField off n t).setLevel bs l = .ok bs') (hb : t.setLevel (rd bs off n) l = .ok b) (hl : b.length = n) :
    SameOutside off n bs bs' := by
  simp only [atField, hb, Res.map, Res.ok.injEq] at hset
  subst hset
  refine ⟨wr_length (by omega), ?_⟩
  intro i hi
  simp only [wr]
  rcases hi with hi | hi
  · rw [List.append_assoc, List.getElem?_append_left (by simp; omega), List.getElem?_take_of_lt hi]
  · rw [List.getElem?_append_right (by simp; omega), List.getElem?_drop]
    congr 1
    simp
    omega

/-- C05, pairs: `max_level` is the larger one; the second member is used unless the first has strictly more levels;
levels are read from and written to that member, leaving all other bytes alone. -/
theorem C05_pair {pw : Nat} (hpw : pw = 32 ∨ pw = 64) (n al o1 o2 : Nat) (a b : Ty)
    (hwf : (Ty.pair n al o1 a o2 b).WF pw) :
    let P := Ty.pair n al o1 a o2 b
    let off := if (b.traits pw).maxLevel < (a.traits pw).maxLevel then o1 else o2
    let M := if (b.traits pw).maxLevel < (a.traits pw).maxLevel then a else b
    (P.traits pw).maxLevel = max (a.traits pw).maxLevel (b.traits pw).maxLevel ∧
    (∀ bs, (P.traits pw).getLevel bs = (M.traits pw).getLevel (rd bs off (M.size pw))) ∧
    (∀ bs l, bs.length = n → l.toNat < M.cap pw →
      ∃ bs', (P.traits pw).setLevel bs l = .ok bs' ∧ SameOutside off (M.size pw) bs bs' ∧
        (M.traits pw).getLevel (rd bs' off (M.size pw)) = l) := by
  intro P off M
  have hwf' := hwf
  simp only [Ty.WF] at hwf'
  have e : P.traits pw = pairTraits (atField o1 (a.size pw) (a.traits pw)) (atField o2 (b.size pw) (b.traits pw)) := by
    simp only [P, Ty.traits, Ty.sizeTraits, Ty.size]
  have e2 : P.traits pw = atField off (M.size pw) (M.traits pw) := by
    rw [e, pairTraits]
    have hmax : ∀ o k t, (atField o k t).maxLevel = t.maxLevel := fun _ _ _ => rfl
    simp only [hmax, off, M]
    by_cases h : (b.traits pw).maxLevel < (a.traits pw).maxLevel
    · simp only [if_pos h, gt_iff_lt]
    · simp only [if_neg h, gt_iff_lt]
  have hM : M.WF pw ∧ off + M.size pw ≤ n := by
    simp only [M, off]
    split
    · exact ⟨hwf'.1, hwf'.2.2.1⟩
    · exact ⟨hwf'.2.1, hwf'.2.2.2⟩
  refine ⟨?_, ?_, ?_⟩
  · rw [pair_maxLevel]; split <;> omega
  · intro bs; rw [e2]; rfl
  · intro bs l hbs hl
    obtain ⟨x, hx, hxl, hxg⟩ := (Ty.lawOK hpw M hM.1).roundtrip (rd bs off (M.size pw)) l (by rw [rd_length]; omega) hl
    have hs : (P.traits pw).setLevel bs l = .ok (wr bs off x) := by
      rw [e2, atField]; simp only [hx, Res.map]
    refine ⟨_, hs, ?_, ?_⟩
    · rw [e2] at hs
      exact atField_sameOutside (by omega) hs hx hxl
    · rw [rd_wr_same hxl (by omega)]; exact hxg

/-- `std::pair<void*, bool>`: the pointer member, at offset 0, carries the levels -/
example (bs : Bytes) : ((Ty.pair 16 8 0 .pointer 8 .bool).traits 64).getLevel bs = (Ty.pointer.traits 64).getLevel (rd bs 0 8) :=
  (C05_pair (.inr rfl) 16 8 0 8 .pointer .bool (by simp [Ty.WF]; decide)).2.1 bs

theorem fields_traits_getElem {pw : Nat} : ∀ (fs : Fields) (i : Nat),
    (fs.traits pw)[i]? = (fs.toList[i]?).map (fun p => atField p.1 (p.2.size pw) (p.2.traits pw))
  | .nil, i => by simp [Fields.traits, Fields.toList]
  | .cons off t rest, 0 => by simp [Fields.traits, Fields.toList, Ty.size, Ty.traits]
  | .cons off t rest, i + 1 => by
    have := fields_traits_getElem (pw := pw) rest i
    simp [Fields.traits, Fields.toList, this]

theorem fields_wf_mem {pw n : Nat} : ∀ (fs : Fields), fs.WF pw n → ∀ p ∈ fs.toList, p.2.WF pw ∧ p.1 + p.2.size pw ≤ n
  | .nil, _, p, hp => by simp [Fields.toList] at hp
  | .cons off t rest, h, p, hp => by
    simp only [Fields.WF] at h
    simp only [Fields.toList, List.mem_cons] at hp
    rcases hp with rfl | hp
    · exact ⟨h.1, h.2.1⟩
    · exact fields_wf_mem rest h.2.2 p hp

/-- C05, tuples, tuple-like and reflected structs: there is a member, the first with the largest `max_level`, whose
levels the composite uses: same `max_level`, read from and written to that member, all other bytes untouched. -/
theorem C05_tuple {pw : Nat} (hpw : pw = 32 ∨ pw = 64) (n al : Nat) (fs : Fields) (hne : fs.toList ≠ [])
    (hwf : (Ty.tuple n al fs).WF pw) :
    let P := Ty.tuple n al fs
    ∃ (i off : Nat) (M : Ty), fs.toList[i]? = some (off, M) ∧
      (∀ p ∈ fs.toList, (p.2.traits pw).maxLevel ≤ (M.traits pw).maxLevel) ∧
      (∀ (j : Nat) (p : Nat × Ty), j < i → fs.toList[j]? = some p → (p.2.traits pw).maxLevel < (M.traits pw).maxLevel) ∧
      (P.traits pw).maxLevel = (M.traits pw).maxLevel ∧
      (∀ bs, (P.traits pw).getLevel bs = (M.traits pw).getLevel (rd bs off (M.size pw))) ∧
      (∀ bs l, bs.length = n → l.toNat < M.cap pw →
        ∃ bs', (P.traits pw).setLevel bs l = .ok bs' ∧ SameOutside off (M.size pw) bs bs' ∧
          (M.traits pw).getLevel (rd bs' off (M.size pw)) = l) := by
  intro P
  simp only [Ty.WF] at hwf
  have e : P.traits pw = findMaxLevel (fs.traits pw) := by simp only [P, Ty.traits, Ty.sizeTraits]
  cases hts : fs.traits pw with
  | nil =>
    cases fs with
    | nil => exact absurd rfl hne
    | cons off t rest => simp [Fields.traits] at hts
  | cons t0 ts =>
    obtain ⟨i, hi, hidx, hget⟩ := findMaxLevel_cons (t := t0) (ts := ts)
    obtain ⟨m, hm1, hm2, hm3⟩ := indexOfMax_spec (xs := (t0 :: ts).map (·.maxLevel)) (by simp)
    rw [← hidx] at hm1 hm3
    have hg := fields_traits_getElem (pw := pw) fs
    rw [hts] at hg e
    have hgi := hg i
    rw [hget] at hgi
    cases hfi : fs.toList[i]? with
    | none => rw [hfi] at hgi; simp at hgi
    | some p =>
      obtain ⟨off, M⟩ := p
      rw [hfi] at hgi
      simp only [Option.map_some, Option.some.injEq] at hgi
      have hmM : m = (M.traits pw).maxLevel := by
        rw [List.getElem?_map, hget, hgi] at hm1
        simpa [atField] using hm1.symm
      have e2 : P.traits pw = atField off (M.size pw) (M.traits pw) := by rw [e, hgi]
      have hlev : ∀ (j : Nat) (p : Nat × Ty), fs.toList[j]? = some p →
          ((t0 :: ts).map (·.maxLevel))[j]? = some (p.2.traits pw).maxLevel := by
        intro j p hp
        rw [List.getElem?_map, hg j, hp]; rfl
      obtain ⟨hMwf, hoff⟩ := fields_wf_mem fs hwf (off, M) (List.mem_of_getElem? hfi)
      refine ⟨i, off, M, hfi, ?_, ?_, ?_, ?_, ?_⟩
      · intro p hp
        obtain ⟨j, hj⟩ := List.mem_iff_getElem?.1 hp
        have := hm2 j _ (hlev j p hj)
        omega
      · intro j p hj hp
        have := hm3 j _ hj (hlev j p hp)
        omega
      · rw [e2]; rfl
      · intro bs; rw [e2]; rfl
      · intro bs l hbs hl
        simp only at hMwf hoff
        obtain ⟨x, hx, hxl, hxg⟩ := (Ty.lawOK hpw M hMwf).roundtrip (rd bs off (M.size pw)) l
          (by rw [rd_length]; omega) hl
        have hs : (P.traits pw).setLevel bs l = .ok (wr bs off x) := by
          rw [e2, atField]; simp only [hx, Res.map]
        refine ⟨_, hs, ?_, ?_⟩
        · rw [e2] at hs
          exact atField_sameOutside (by omega) hs hx hxl
        · rw [rd_wr_same hxl (by omega)]; exact hxg

/-- `std::tuple<bool, int*, int*>`: the second element, the first of the two with 512 levels -/
example : ∃ (i off : Nat) (M : Ty), (Fields.cons 0 .bool (.cons 8 .pointer (.cons 16 .pointer .nil))).toList[i]? = some (off, M) ∧
    ((Ty.tuple 24 8 (.cons 0 .bool (.cons 8 .pointer (.cons 16 .pointer .nil)))).traits 64).maxLevel =
      (M.traits 64).maxLevel :=
  let ⟨i, off, M, h1, _, _, h2, _⟩ := C05_tuple (.inr rfl) 24 8 (.cons 0 .bool (.cons 8 .pointer (.cons 16 .pointer .nil)))
    (by simp [Fields.toList]) (by simp [Ty.WF, Fields.WF]; decide)
  ⟨i, off, M, h1, h2⟩

/-- C05: with no members there are no levels. -/
theorem C05_empty (pw n al : Nat) : ((Ty.tuple n al .nil).traits pw).maxLevel = 0 := by
  simp only [Ty.traits, Ty.sizeTraits, Fields.traits, findMaxLevel, noTraits]

example : ((Ty.tuple 24 8 (.cons 0 .bool (.cons 8 .pointer (.cons 16 .pointer .nil)))).traits 64).maxLevel = 512 ∧
    (Ty.tuple 24 8 (.cons 0 .bool (.cons 8 .pointer (.cons 16 .pointer .nil)))).WF 64 := by
  refine ⟨rfl, ?_⟩
  simp [Ty.WF, Fields.WF]; decide

end Opt
