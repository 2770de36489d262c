import Verif.Spec.Tos
import Mathlib.Tactic.Ring
import Mathlib.Tactic.Linarith
import Mathlib.Tactic.FieldSimp
import Mathlib.Tactic.NormNum
import Mathlib.Tactic.Positivity
import Mathlib.Tactic.ByContra
import Mathlib.Algebra.Order.Floor.Ring
import Mathlib.Algebra.Order.Field.Power
/-
Lemmas on the text `double_tos` prints.
-/
namespace Verif
namespace Tos

theorem foldl_digits (s : Str) (a : Nat) :
    s.foldl (fun a c => 10 * a + (c.toNat - 48)) a = a * 10 ^ s.length + digitsVal s := by
  induction s generalizing a with
  | nil => simp [digitsVal]
  | cons c t ih =>
    unfold digitsVal
    simp only [List.foldl_cons, List.length_cons]
    rw [ih, ih (10 * 0 + (c.toNat - 48))]
    ring

theorem digitsVal_append (a b : Str) : digitsVal (a ++ b) = digitsVal a * 10 ^ b.length + digitsVal b := by
  show (a ++ b).foldl _ 0 = _
  rw [List.foldl_append, foldl_digits]
  rfl

theorem digitsVal_zeros (j : Nat) : digitsVal (List.replicate j '0') = 0 := by
  induction j with
  | zero => rfl
  | succ j ih => rw [List.replicate_succ']; rw [digitsVal_append, ih]; rfl

theorem digit_toNat (d : Nat) : (digit d).toNat - 48 = d % 10 := by
  have h : d % 10 < 10 := Nat.mod_lt _ (by decide)
  have : ∀ r, r < 10 → (Char.ofNat (48 + r)).toNat - 48 = r := by decide
  exact this _ h

theorem digit_ne (d : Nat) : digit d ≠ '.' ∧ digit d ≠ 'e' ∧ digit d ≠ '-' := by
  have h : d % 10 < 10 := Nat.mod_lt _ (by decide)
  have : ∀ r, r < 10 → Char.ofNat (48 + r) ≠ '.' ∧ Char.ofNat (48 + r) ≠ 'e' ∧ Char.ofNat (48 + r) ≠ '-' := by decide
  exact this _ h

theorem digitsVal_six {m : Nat} (h : m < 10 ^ 6) : digitsVal (six m) = m := by
  simp only [digitsVal, six, List.foldl_cons, List.foldl_nil, digit_toNat]
  omega

theorem six_length (m : Nat) : (six m).length = 6 := rfl

/-- Nothing but digits. -/
def Plain (s : Str) : Prop := ∀ c ∈ s, c ≠ '.' ∧ c ≠ 'e' ∧ c ≠ '-'

theorem six_plain (m : Nat) : Plain (six m) := by
  intro c hc
  simp only [six, List.mem_cons, List.not_mem_nil, or_false] at hc
  rcases hc with rfl | rfl | rfl | rfl | rfl | rfl <;> exact digit_ne _

theorem Plain.append {a b : Str} (ha : Plain a) (hb : Plain b) : Plain (a ++ b) := by
  intro c hc
  rcases List.mem_append.1 hc with h | h
  · exact ha c h
  · exact hb c h

theorem Plain.sub {a b : Str} (hb : Plain b) (h : ∀ c ∈ a, c ∈ b) : Plain a := fun c hc => hb c (h c hc)

theorem zeros_plain (j : Nat) : Plain (List.replicate j '0') := by
  intro c hc
  rw [List.eq_of_mem_replicate hc]; decide

theorem strip_spec (s : Str) : ∃ j, s = strip s ++ List.replicate j '0' := by
  unfold strip
  have h := List.takeWhile_append_dropWhile (p := (· == '0')) (l := s.reverse)
  refine ⟨(s.reverse.takeWhile (· == '0')).length, ?_⟩
  have hr : s.reverse.takeWhile (· == '0') = List.replicate (s.reverse.takeWhile (· == '0')).length '0' := by
    rw [List.eq_replicate_iff]
    refine ⟨rfl, fun c hc => ?_⟩
    have := (List.all_eq_true.1 (List.all_takeWhile (p := (· == '0')) (l := s.reverse))) c hc
    simpa using this
  have h2 := congrArg List.reverse h
  rw [List.reverse_append, List.reverse_reverse] at h2
  conv_lhs => rw [← h2]
  congr 1
  conv_lhs => rw [hr]
  rw [List.reverse_replicate]

theorem strip_plain {s : Str} (h : Plain s) : Plain (strip s) := by
  obtain ⟨j, e⟩ := strip_spec s
  exact h.sub fun c hc => by rw [e]; exact List.mem_append.2 (.inl hc)

theorem plain_filter {s : Str} (h : Plain s) : s.filter (· ≠ '.') = s := by
  rw [List.filter_eq_self]
  intro c hc; simpa using (h c hc).1

theorem plain_dropWhile {s : Str} (h : Plain s) (t : Str) : (s ++ t).dropWhile (· ≠ '.') = t.dropWhile (· ≠ '.') := by
  induction s with
  | nil => rfl
  | cons c s ih =>
    have hc := (h c (by simp)).1
    rw [List.cons_append, List.dropWhile_cons, if_pos (by simpa using hc)]
    exact ih fun d hd => h d (by simp [hd])

/-- The number written by `pointed`. -/
theorem mantissa_pointed {ip fp : Str} (hi : Plain ip) (hf : Plain fp) :
    mantissaVal (pointed ip fp) = digitsVal (ip ++ fp) / 10 ^ fp.length := by
  unfold pointed
  split
  · rename_i e
    subst e
    have := plain_dropWhile hi []
    rw [List.append_nil] at this
    simp only [mantissaVal, plain_filter hi, this, List.append_nil]
    rfl
  · unfold mantissaVal
    rw [plain_dropWhile hi]
    simp only [List.filter_append, plain_filter hi]
    rw [List.filter_cons_of_neg (by simp), plain_filter hf]
    rfl

/-- Trailing zeros after the point do not count. -/
theorem mantissa_strip {ip fp : Str} (hi : Plain ip) (hf : Plain fp) :
    mantissaVal (pointed ip (strip fp)) = digitsVal (ip ++ fp) / 10 ^ fp.length := by
  rw [mantissa_pointed hi (strip_plain hf)]
  obtain ⟨j, e⟩ := strip_spec fp
  have h1 : digitsVal (ip ++ fp) = digitsVal (ip ++ strip fp) * 10 ^ j := by
    conv_lhs => rw [e, ← List.append_assoc, digitsVal_append, digitsVal_zeros, List.length_replicate]
    rfl
  have h2 : fp.length = (strip fp).length + j := by
    conv_lhs => rw [e, List.length_append, List.length_replicate]
  rw [h1, h2]
  push_cast
  rw [pow_add]
  field_simp

theorem pointed_plain {ip fp : Str} (hi : Plain ip) (hf : Plain fp) : ∀ c ∈ pointed ip fp, c ≠ 'e' ∧ c ≠ '-' := by
  intro c hc
  unfold pointed at hc
  split at hc
  · exact (hi c hc).2
  · rcases List.mem_append.1 hc with h | h
    · exact (hi c h).2
    · rcases List.mem_cons.1 h with rfl | h
      · decide
      · exact (hf c h).2

theorem unsigned_append {s t : Str} (h : ∀ c ∈ s, c ≠ 'e') (ht : t = [] ∨ ∃ u, t = 'e' :: u) :
    unsignedVal (s ++ t) = mantissaVal s * 10 ^ exponentVal t := by
  have h1 : (s ++ t).takeWhile (· ≠ 'e') = s := by
    rw [List.takeWhile_append_of_pos (by simpa using h)]
    rcases ht with rfl | ⟨u, rfl⟩ <;> simp
  have h2 : (s ++ t).dropWhile (· ≠ 'e') = t := by
    rw [List.dropWhile_append_of_pos (by simpa using h)]
    rcases ht with rfl | ⟨u, rfl⟩ <;> simp
  unfold unsignedVal
  rw [h1, h2]

theorem digitChar_val (r : Nat) (h : r < 10) : (Nat.digitChar r).toNat - 48 = r := by
  have : ∀ r, r < 10 → (Nat.digitChar r).toNat - 48 = r := by decide
  exact this r h

theorem toDigits_val (n : Nat) : digitsVal (Nat.toDigits 10 n) = n := by
  induction n using Nat.strongRecOn with
  | _ n ih =>
    by_cases h : n < 10
    · rw [Nat.toDigits_of_lt_base h]
      simpa [digitsVal] using digitChar_val n h
    · rw [Nat.toDigits_of_base_le (by decide) (by omega), digitsVal_append, ih _ (by omega)]
      have := digitChar_val (n % 10) (by omega)
      simp only [digitsVal, List.foldl_cons, List.foldl_nil, List.length_cons, List.length_nil, this]
      omega

theorem exponent_val (x : Int) :
    exponentVal ((if x < 0 then ['e', '-'] else ['e', '+']) ++ (if x.natAbs < 10 then ['0'] else []) ++ Nat.toDigits 10 x.natAbs) = x := by
  have key : digitsVal ((if x.natAbs < 10 then ['0'] else []) ++ Nat.toDigits 10 x.natAbs) = x.natAbs := by
    rw [digitsVal_append, toDigits_val]
    split <;> simp [digitsVal]
  rw [List.append_assoc]
  split
  · show -((digitsVal ((if x.natAbs < 10 then ['0'] else []) ++ Nat.toDigits 10 x.natAbs) : Nat) : Int) = x
    rw [key]; omega
  · show ((digitsVal ((if x.natAbs < 10 then ['0'] else []) ++ Nat.toDigits 10 x.natAbs) : Nat) : Int) = x
    rw [key]; omega

/-- What `%g` prints is worth the six significant digits. -/
theorem printG_val {nd k m : Nat} {x : Int} (hk : k ≠ 0) (hs : significant nd k = (m, x)) (hm : m < 10 ^ 6) :
    unsignedVal (printG nd k) = m * 10 ^ (x - 5) := by
  have h10 : (10 : Rat) ≠ 0 := by norm_num
  unfold printG
  rw [if_neg hk, hs]
  dsimp only
  split
  · rename_i hx
    rw [List.append_assoc, List.append_assoc, unsigned_append]
    · rw [← List.append_assoc, exponent_val, mantissa_strip ((six_plain m).sub fun c => List.mem_of_mem_take)
        ((six_plain m).sub fun c => List.mem_of_mem_drop), List.take_append_drop, digitsVal_six hm]
      rw [List.length_drop, six_length, zpow_sub₀ h10]
      norm_num
      ring
    · intro c hc
      exact (pointed_plain ((six_plain m).sub fun c => List.mem_of_mem_take)
        (strip_plain ((six_plain m).sub fun c => List.mem_of_mem_drop)) c hc).1
    · right
      split <;> exact ⟨_, rfl⟩
  · split
    · rename_i h1 h2
      have hi : Plain ((six m).take (x.toNat + 1)) := (six_plain m).sub fun c => List.mem_of_mem_take
      have hf : Plain ((six m).drop (x.toNat + 1)) := (six_plain m).sub fun c => List.mem_of_mem_drop
      have := unsigned_append (s := pointed ((six m).take (x.toNat + 1)) (strip ((six m).drop (x.toNat + 1)))) (t := [])
        (fun c hc => (pointed_plain hi (strip_plain hf) c hc).1) (.inl rfl)
      rw [List.append_nil] at this
      rw [this, mantissa_strip hi hf, List.take_append_drop, digitsVal_six hm, List.length_drop, six_length]
      have e : x - 5 = -((6 - (x.toNat + 1) : Nat) : Int) := by omega
      rw [e, zpow_neg, zpow_natCast]
      show _ * (10 : Rat) ^ (0 : Int) = _
      rw [zpow_zero]
      ring
    · rename_i h1 h2
      have hi : Plain ['0'] := by intro c hc; simp at hc; subst hc; decide
      have hz := zeros_plain (-x - 1).toNat
      have hf := hz.append (strip_plain (six_plain m))
      have := unsigned_append (s := pointed ['0'] (List.replicate (-x - 1).toNat '0' ++ strip (six m))) (t := [])
        (fun c hc => (pointed_plain hi hf c hc).1) (.inl rfl)
      rw [List.append_nil] at this
      rw [this, mantissa_pointed hi hf]
      obtain ⟨j, e⟩ := strip_spec (six m)
      have d1 : digitsVal (strip (six m)) * 10 ^ j = m := by
        rw [← digitsVal_six hm]
        conv_rhs => rw [e, digitsVal_append, digitsVal_zeros, List.length_replicate]
        rw [digitsVal_six hm]; rfl
      have d2 : (strip (six m)).length + j = 6 := by
        rw [← six_length m]
        conv_rhs => rw [e, List.length_append, List.length_replicate]
      have d3 : digitsVal (['0'] ++ (List.replicate (-x - 1).toNat '0' ++ strip (six m))) = digitsVal (strip (six m)) := by
        rw [digitsVal_append, digitsVal_append, digitsVal_zeros]; simp [digitsVal]
      rw [d3, List.length_append, List.length_replicate]
      have e2 : x - 5 = -(((-x - 1).toNat + (strip (six m)).length + j : Nat) : Int) := by omega
      have d1' : (digitsVal (strip (six m)) : Rat) * 10 ^ j = m := by exact_mod_cast d1
      rw [e2, zpow_neg, zpow_natCast]
      show _ * (10 : Rat) ^ (0 : Int) = _
      rw [zpow_zero, pow_add _ _ j, ← d1']
      field_simp

theorem numDigitsN_spec (n k : Nat) (h : k < 10 ^ (n + 1)) (hk : 0 < k) :
    1 ≤ numDigitsN n k ∧ 10 ^ (numDigitsN n k - 1) ≤ k ∧ k < 10 ^ numDigitsN n k := by
  induction n generalizing k with
  | zero => simp only [numDigitsN] at *; norm_num at h ⊢; omega
  | succ n ih =>
    unfold numDigitsN
    split
    · simp; omega
    · obtain ⟨a, b, c⟩ := ih (k / 10) (by rw [pow_succ] at h; omega) (by omega)
      refine ⟨by omega, ?_, ?_⟩
      · obtain ⟨l, hl⟩ : ∃ l, numDigitsN n (k / 10) = l + 1 := ⟨_, (Nat.sub_add_cancel a).symm⟩
        rw [hl] at b ⊢
        simp only [Nat.add_sub_cancel] at b ⊢
        rw [pow_succ]; omega
      · rw [pow_succ]; omega

theorem numDigits_spec {k : Nat} (hk : 0 < k) : 1 ≤ numDigits k ∧ 10 ^ (numDigits k - 1) ≤ k ∧ k < 10 ^ numDigits k := by
  apply numDigitsN_spec _ _ _ hk
  exact lt_of_lt_of_le (Nat.lt_pow_self (by decide)) (Nat.pow_le_pow_right (by decide) (by omega))

theorem nearest_err (k d : Nat) (hd : 0 < d) : 2 * (nearest k d * d) ≤ 2 * k + d ∧ 2 * k ≤ 2 * (nearest k d * d) + d := by
  have h := Nat.div_add_mod k d
  have e : (k / d) * d = d * (k / d) := Nat.mul_comm _ _
  have e' : (k / d + 1) * d = d * (k / d) + d := by rw [Nat.add_mul, e, Nat.one_mul]
  unfold nearest
  split
  · rw [e]; omega
  · split
    · rw [e']
      have := Nat.mod_lt k hd
      omega
    · split
      · rw [e]; omega
      · rw [e']; omega

/-- The significant digits: exact for up to six digits, else off by at most half a unit of the sixth digit. -/
theorem significant_spec (nd : Nat) {k : Nat} (hk : 0 < k) :
    ∃ m x, significant nd k = (m, x) ∧ m < 10 ^ 6 ∧ 10 ^ 5 ≤ m ∧
      (k < 10 ^ 6 → (m : Rat) * 10 ^ (x - 5) = k / 10 ^ nd) ∧
      |(m : Rat) * 10 ^ (x - 5) - k / 10 ^ nd| ≤ (k / 10 ^ nd) / 200000 := by
  have h10 : (10 : Rat) ≠ 0 := by norm_num
  obtain ⟨h1, h2, h3⟩ := numDigits_spec hk
  have hkq : (0 : Rat) ≤ k / 10 ^ nd := by positivity
  unfold significant
  generalize hl : numDigits k = l at *
  obtain ⟨l, rfl⟩ : ∃ l', l = l' + 1 := ⟨l - 1, by omega⟩
  simp only [Nat.add_sub_cancel] at h2
  dsimp only
  split
  · rename_i hle
    have hm1 : k * 10 ^ (6 - (l + 1)) < 10 ^ 6 := by
      calc k * 10 ^ (6 - (l + 1)) < 10 ^ (l + 1) * 10 ^ (6 - (l + 1)) := Nat.mul_lt_mul_of_pos_right h3 (by positivity)
        _ = 10 ^ 6 := by rw [← pow_add]; congr 1; omega
    have hm2 : 10 ^ 5 ≤ k * 10 ^ (6 - (l + 1)) := by
      calc 10 ^ 5 = 10 ^ l * 10 ^ (6 - (l + 1)) := by rw [← pow_add]; congr 1; omega
        _ ≤ _ := Nat.mul_le_mul_right _ h2
    have hv : ((k * 10 ^ (6 - (l + 1)) : Nat) : Rat) * 10 ^ (((l + 1 : Nat) : Int) - 1 - nd - 5) = k / 10 ^ nd := by
      have e : ((l + 1 : Nat) : Int) - 1 - nd - 5 = -((6 - (l + 1) : Nat) : Int) - (nd : Int) := by omega
      rw [e, zpow_sub₀ h10, zpow_neg, zpow_natCast, zpow_natCast]
      push_cast
      field_simp
    refine ⟨_, _, rfl, hm1, hm2, fun _ => hv, ?_⟩
    rw [hv, sub_self, abs_zero]
    positivity
  · rename_i hgt
    obtain ⟨j, rfl⟩ : ∃ j, l = j + 6 := ⟨l - 6, by omega⟩
    have e7 : j + 6 + 1 - 6 = j + 1 := by omega
    rw [e7]
    obtain ⟨n1, n2⟩ := nearest_err k (10 ^ (j + 1)) (by positivity)
    have hmod := n1
    generalize hM : nearest k (10 ^ (j + 1)) = M at *
    have hD : 0 < 10 ^ (j + 1) := by positivity
    have e6 : 10 ^ (j + 6 + 1) = 10 ^ 6 * 10 ^ (j + 1) := by rw [← pow_add]; congr 1; omega
    have e5 : 10 ^ (j + 6) = 10 ^ 5 * 10 ^ (j + 1) := by rw [← pow_add]; congr 1; omega
    rw [e6] at h3
    rw [e5] at h2
    have hMle : M ≤ 10 ^ 6 := by
      by_contra hc
      have : (10 ^ 6 + 1) * 10 ^ (j + 1) ≤ M * 10 ^ (j + 1) := Nat.mul_le_mul_right _ (by omega)
      rw [Nat.add_mul, Nat.one_mul] at this
      omega
    have hMge : 10 ^ 5 ≤ M := by
      by_contra hc
      have : (M + 1) * 10 ^ (j + 1) ≤ 10 ^ 5 * 10 ^ (j + 1) := Nat.mul_le_mul_right _ (by omega)
      rw [Nat.add_mul, Nat.one_mul] at this
      omega
    have hk6 : ¬ k < 10 ^ 6 := by
      have : 10 ^ 5 * 10 ≤ 10 ^ 5 * 10 ^ (j + 1) := Nat.mul_le_mul_left _ (by
        have : 0 < 10 ^ j := by positivity
        rw [pow_succ]; omega)
      omega
    -- the error in rational form
    have herr : |(M : Rat) * 10 ^ (((j + 6 + 1 : Nat) : Int) - 1 - nd - 5) - k / 10 ^ nd| ≤ (k / 10 ^ nd) / 200000 := by
      have e : ((j + 6 + 1 : Nat) : Int) - 1 - nd - 5 = ((j + 1 : Nat) : Int) - (nd : Int) := by omega
      rw [e, zpow_sub₀ h10, zpow_natCast, zpow_natCast]
      have hp : (0 : Rat) < 10 ^ nd := by positivity
      have q1 : (2 : Rat) * (M * 10 ^ (j + 1)) ≤ 2 * k + 10 ^ (j + 1) := by exact_mod_cast n1
      have q2 : (2 : Rat) * k ≤ 2 * (M * 10 ^ (j + 1)) + 10 ^ (j + 1) := by exact_mod_cast n2
      have q3 : (10 : Rat) ^ 5 * 10 ^ (j + 1) ≤ k := by exact_mod_cast h2
      have : (M : Rat) * (10 ^ (j + 1) / 10 ^ nd) - k / 10 ^ nd = (M * 10 ^ (j + 1) - k) / 10 ^ nd := by ring
      rw [this, abs_div, abs_of_pos hp, div_right_comm, div_le_div_iff_of_pos_right hp, abs_le]
      constructor <;> linarith
    split
    · rename_i hM6
      refine ⟨_, _, rfl, by norm_num, by norm_num, fun h => absurd h hk6, ?_⟩
      have : ((10 ^ 5 : Nat) : Rat) * 10 ^ (((j + 6 + 1 : Nat) : Int) - nd - 5) =
          (M : Rat) * 10 ^ (((j + 6 + 1 : Nat) : Int) - 1 - nd - 5) := by
        rw [hM6]
        have e : ((j + 6 + 1 : Nat) : Int) - nd - 5 = (((j + 6 + 1 : Nat) : Int) - 1 - nd - 5) + 1 := by omega
        rw [e, zpow_add_one₀ h10]
        push_cast
        ring
      rw [this]
      exact herr
    · exact ⟨_, _, rfl, by omega, hMge, fun h => absurd h hk6, herr⟩

/-- A printed magnitude has no sign. -/
theorem printG_head (nd k : Nat) : ∀ t, printG nd k ≠ '-' :: t := by
  intro t h
  have key : ∀ ip fp : Str, ip ≠ [] → (∀ c ∈ ip, c ≠ '-') → ∀ r, pointed ip fp ++ r ≠ '-' :: t := by
    intro ip fp hne hip r e
    cases ip with
    | nil => exact hne rfl
    | cons c ip =>
      unfold pointed at e
      have : c = '-' := by
        split at e
        · exact (List.cons.inj e).1
        · exact (List.cons.inj e).1
      exact hip c (by simp) this
  unfold printG at h
  split at h
  · cases h
  · generalize hs : significant nd k = mx at h
    obtain ⟨m, x⟩ := mx
    dsimp only at h
    split at h
    · rw [List.append_assoc, List.append_assoc] at h
      exact key _ _ (by simp [six]) (fun c hc => ((six_plain m) c (List.mem_of_mem_take hc)).2.2) _ h
    · split at h
      · rw [← List.append_nil (pointed _ _)] at h
        exact key _ _ (by simp [six]) (fun c hc => ((six_plain m) c (List.mem_of_mem_take hc)).2.2) _ h
      · rw [← List.append_nil (pointed _ _)] at h
        exact key _ _ (by simp) (by intro c hc; simp at hc; subst hc; decide) _ h

theorem numeralVal_unsigned {s : Str} (h : ∀ t, s ≠ '-' :: t) : numeralVal s = unsignedVal s := by
  unfold numeralVal
  split
  · rename_i t; exact absurd rfl (h t)
  · rfl

/-- `std::round`: halves away from zero. -/
theorem rounded_spec (nd : Nat) (f : Double) (h : 0 ≤ f.abs) : RoundsTo nd f.abs (rounded nd f) := by
  unfold RoundsTo rounded
  have h0 : (0 : Rat) ≤ f.abs * 10 ^ nd + 1 / 2 := by positivity
  have hf : (0 : Int) ≤ (f.abs * 10 ^ nd + 1 / 2).floor := by
    rw [Rat.le_floor_iff]; exact_mod_cast h0
  have e : (((f.abs * 10 ^ nd + 1 / 2).floor.toNat : Nat) : Rat) = ((f.abs * 10 ^ nd + 1 / 2).floor : Rat) := by
    have := Int.toNat_of_nonneg hf
    exact_mod_cast this
  rw [e]
  have a := Rat.floor_le (f.abs * 10 ^ nd + 1 / 2)
  have b := Rat.lt_floor (x := f.abs * 10 ^ nd + 1 / 2)
  constructor <;> linarith

theorem RoundsTo.unique {nd : Nat} {x : Rat} {n n' : Nat} (h : RoundsTo nd x n) (h' : RoundsTo nd x n') : n = n' := by
  obtain ⟨a, b⟩ := h
  obtain ⟨a', b'⟩ := h'
  have h1 : (n : Rat) < n' + 1 := by linarith
  have h2 : (n' : Rat) < n + 1 := by linarith
  have h1 : n < n' + 1 := by exact_mod_cast h1
  have h2 : n' < n + 1 := by exact_mod_cast h2
  omega

end Tos
end Verif
