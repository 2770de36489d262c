import Verif.Spec.Pun
import Verif.PunReader
import Verif.LogLemmas
import Verif.Props.Strings
import Verif.Props.MatrixA
/-
Reading a whole punch file.
-/
namespace Verif.Readers
open Strings Log Pun Mat

variable {α : Type} [Mul α] [Num α]

/-! ### a line of coefficients -/

theorem trimmed_layout {a m : Str} (h : Layout a [m]) : trimmed a = m := by
  obtain ⟨ps, trail, e, em, h1, -, h3⟩ := h
  cases ps with
  | nil => simp at em
  | cons p ps =>
    cases ps with
    | cons q ps => simp at em
    | nil =>
      simp only [List.map_cons, List.map_nil, List.cons.injEq, and_true] at em
      obtain ⟨g1, g2, g3⟩ := h1 p (by simp)
      rw [e]
      simp only [List.flatMap_cons, List.flatMap_nil, List.append_nil]
      rw [C45_trim_unique g1 h3 (.inr ?_), em]
      cases hp : p.2 with
      | nil => exact absurd hp g2
      | cons c t =>
        rw [hp] at g3
        exact ⟨⟨c, t, rfl, g3 c (by simp)⟩, (c :: t).dropLast, (c :: t).getLast (by simp),
          (List.dropLast_append_getLast (by simp)).symm, g3 _ (List.getLast_mem _)⟩

theorem gausLoop_fields (done : Str) (fields : List (Str × α)) (short : Str) (hs : short.length < 15)
    (hf : ∀ f ∈ fields, Field f.1 f.2) (acc : List α) (fuel : Nat) (hfuel : fields.length < fuel)
    (hfit : Fits (done ++ (fields.flatMap (·.1) ++ short))) :
    gausLoop (done ++ (fields.flatMap (·.1) ++ short)) fuel done.length acc = .ok (acc ++ fields.map (·.2)) := by
  induction fields generalizing done acc fuel with
  | nil =>
    obtain ⟨fuel, rfl⟩ : ∃ k, fuel = k + 1 := ⟨fuel - 1, by simp at hfuel; omega⟩
    unfold Fits at hfit
    simp only [List.flatMap_nil, List.nil_append, List.length_append] at hfit
    rw [gausLoop, if_neg]
    · simp
    · unfold toSize
      simp only [List.flatMap_nil, List.nil_append, List.length_append]
      omega
  | cons f fields ih =>
    obtain ⟨fuel, rfl⟩ : ∃ k, fuel = k + 1 := ⟨fuel - 1, by simp at hfuel; omega⟩
    obtain ⟨a, c, e, m, x, y, z, h1, h2, h3, h4, h5, h6, h7, h8⟩ := hf f (by simp)
    have hlen : f.1.length = 15 := by rw [h1]; simp [h2, h3]
    have htext : done ++ ((f :: fields).flatMap (·.1) ++ short) = done ++ f.1 ++ (fields.flatMap (·.1) ++ short) := by simp
    have hrec := ih (done ++ f.1) (fun g hg => hf g (by simp [hg])) (acc ++ [f.2]) fuel (by simp at hfuel; omega)
      (by rw [← htext]; exact hfit)
    rw [← htext] at hrec
    have hfit' := hfit
    unfold Fits at hfit'
    rw [htext] at hfit'
    simp only [List.length_append, hlen] at hfit'
    rw [gausLoop, if_pos]
    · have s1 : substr (done ++ ((f :: fields).flatMap (·.1) ++ short)) (0 + done.length) 11 = .ok a := by
        rw [substr_ok (by simp)]
        congr 1
        rw [Nat.zero_add, List.drop_left, List.flatMap_cons, h1]
        simp only [List.append_assoc]
        rw [List.take_append_of_le_length (by omega), List.take_of_length_le (by omega)]
      have s2 : substr (done ++ ((f :: fields).flatMap (·.1) ++ short)) (12 + done.length) 3 = .ok e := by
        have el : done ++ ((f :: fields).flatMap (·.1) ++ short) = (done ++ a ++ [c]) ++ (e ++ (fields.flatMap (·.1) ++ short)) := by
          rw [htext, h1]; simp
        rw [el, substr_ok (by simp; omega)]
        congr 1
        rw [show 12 + done.length = (done ++ a ++ [c]).length by simp; omega, List.drop_left,
          List.take_append_of_le_length (by omega), List.take_of_length_le (by omega)]
      rw [s1]
      simp only [Res.ok_bind]
      rw [trimmed_layout h4, h6]
      simp only [Res.ok_bind]
      rw [s2]
      simp only [Res.ok_bind]
      rw [trimmed_layout h5, h7]
      simp only [Res.ok_bind]
      rw [← h8]
      have : done.length + 15 = (done ++ f.1).length := by simp [hlen]
      rw [this, hrec]
      simp
    · rw [htext]
      unfold toSize
      simp only [List.length_append, hlen]
      omega

theorem readGausCoefLine_fields (fields : List (Str × α)) (short : Str) (hs : short.length < 15)
    (hf : ∀ f ∈ fields, Field f.1 f.2) (hfit : Fits (fields.flatMap (·.1) ++ short)) :
    readGausCoefLine (fields.flatMap (·.1) ++ short) = .ok (fields.map (·.2)) := by
  have hl : fields.length ≤ (fields.flatMap (·.1)).length := by
    clear hfit
    induction fields with
    | nil => simp
    | cons f fs ih =>
      obtain ⟨a, c, e, m, x, y, z, h1, h2, h3, -⟩ := hf f (by simp)
      have := ih (fun g hg => hf g (by simp [hg]))
      simp only [List.length_cons, List.flatMap_cons, List.length_append]
      have : f.1.length = 15 := by rw [h1]; simp [h2, h3]
      omega
  have := gausLoop_fields [] fields short hs hf [] ((fields.flatMap (·.1) ++ short).length + 1)
    (by simp only [List.length_append]; omega) (by simpa using hfit)
  simpa [readGausCoefLine] using this

theorem coefLine_read {l : Str} {vals : List α} (h : CoefLine l vals) : readGausCoefLine l = .ok vals := by
  obtain ⟨-, hfit, -, fields, short, rfl, h1, h2, rfl⟩ := h
  exact readGausCoefLine_fields fields short h1 h2 hfit

/-! ### an orbital -/

theorem rowLoop_rows (b : Bool) (count : Nat) (rows : List (Str × List α)) (h : ∀ r ∈ rows, CoefLine r.1 r.2 ∧ r.2 ≠ [])
    (row : List α) {rest l : Str} {fid : Stream} (hg : ∀ prev, getline (openText rest) prev = (l, fid))
    (hcount : b = true → row.length + (rows.flatMap (·.2)).length = count)
    (hstop : b = true ∨ foundSubStrInStr l moPattern = true) (fuel : Nat) (prev : Str) :
    rowLoop b count (fuel + rows.length + 1) (getline (openText (unlines (rows.map (·.1)) ++ rest)) prev).2
        (getline (openText (unlines (rows.map (·.1)) ++ rest)) prev).1 row = .ok (fid, l, row ++ rows.flatMap (·.2)) := by
  induction rows generalizing row prev with
  | nil =>
    simp only [List.map_nil, unlines_nil, List.nil_append, hg, List.flatMap_nil, List.append_nil, List.length_nil, Nat.add_zero]
    rw [rowLoop]
    by_cases hp : foundSubStrInStr l moPattern = true
    · rw [if_pos hp]
    · rw [if_neg hp]
      have hb : b = true := hstop.resolve_right hp
      have := hcount hb
      simp only [List.flatMap_nil, List.length_nil, Nat.add_zero] at this
      rw [if_pos (by simp [hb, this])]
  | cons r rows ih =>
    obtain ⟨h1, h2⟩ := h r (by simp)
    rw [List.map_cons, unlines_cons_append, getline_line h1.1]
    simp only [List.length_cons]
    rw [show fuel + (rows.length + 1) + 1 = (fuel + rows.length + 1) + 1 by omega, rowLoop]
    have hnp : foundSubStrInStr r.1 moPattern = false := not_found_contains.2 h1.2.2.1
    rw [if_neg (by simp [hnp]), if_neg, coefLine_read h1]
    · simp only [Res.ok_bind]
      have := ih (fun x hx => h x (by simp [hx])) (row ++ r.2) (by
        intro hb
        have := hcount hb
        simp only [List.flatMap_cons, List.length_append] at this ⊢
        omega) r.1
      rw [this]
      simp
    · intro hc
      simp only [Bool.and_eq_true, decide_eq_true_eq] at hc
      have := hcount hc.1
      simp only [List.flatMap_cons, List.length_append] at this
      have : 1 ≤ r.2.length := List.length_pos_iff.2 h2
      omega

/-! ### a table -/

/-- The line after an orbital. -/
theorem getline_orbs {os : List (Orbital α)} {rest l : Str} {fid : Stream}
    (hg : ∀ prev, getline (openText rest) prev = (l, fid)) (ho : ∀ o ∈ os, IsLine o.header) (prev : Str) :
    getline (openText (tableText os ++ rest)) prev = match os with
      | [] => (l, fid)
      | o :: os => (o.header, openText (unlines (o.rows.map (·.1)) ++ (tableText os ++ rest))) := by
  cases os with
  | nil => simpa [tableText] using hg prev
  | cons o os =>
    have : tableText (o :: os) ++ rest = o.header ++ '\n' :: (unlines (o.rows.map (·.1)) ++ (tableText os ++ rest)) := by
      simp [tableText, Orbital.lines, unlines_append, unlines_cons]
    rw [this, getline_line (ho o (by simp))]

theorem coefLoop_orbs (spin : Spin) (n : Nat) (o : Orbital α) (os : List (Orbital α))
    (h : ∀ x ∈ o :: os, IsLine x.header ∧ x.coefs.length = n ∧ ∀ r ∈ x.rows, CoefLine r.1 r.2 ∧ r.2 ≠ [])
    (hos : ∀ x ∈ os, Contains x.header (lit " MO OE") ∧ Contains x.header spin.name)
    {rest l : Str} {fid : Stream} (hg : ∀ prev, getline (openText rest) prev = (l, fid))
    (hl : ¬ Contains l spin.name) (b : Bool) (count : Nat) (hb : b = true → count = n)
    (hlast : b = false → os = [] → Contains l (lit " MO OE")) (acc : List (List α)) :
    ∃ N, ∀ fuel, coefLoop spin.name (fuel + N) b count
      (openText (unlines (o.rows.map (·.1)) ++ (tableText os ++ rest))) acc =
        .ok (fid, acc ++ (o :: os).map Orbital.coefs) := by
  induction os generalizing o b count acc with
  | nil =>
    obtain ⟨h1, h2, h3⟩ := h o (by simp)
    have hrow := rowLoop_rows b count o.rows h3 [] hg (by intro hb'; rw [hb hb', ← h2]; simp [Orbital.coefs]) (by
      cases b with
      | true => exact .inl rfl
      | false => exact .inr (found_contains.2 (hlast rfl rfl)))
    refine ⟨o.rows.length + 2, fun fuel => ?_⟩
    rw [show fuel + (o.rows.length + 2) = (fuel + o.rows.length + 1) + 1 by omega, coefLoop]
    have e : tableText ([] : List (Orbital α)) ++ rest = rest := rfl
    rw [e]
    have := hrow fuel []
    cases hgl : getline (openText (unlines (o.rows.map (·.1)) ++ rest)) [] with
    | mk line fid' =>
      rw [hgl] at this
      simp only [] at this ⊢
      rw [this]
      simp only [Res.ok_bind]
      rw [not_found_contains.2 hl]
      simp [Orbital.coefs]
  | cons o' os ih =>
    obtain ⟨h1, h2, h3⟩ := h o (by simp)
    have hhead := fun x hx => (h x (List.mem_cons_of_mem _ hx)).1
    have hgl' := getline_orbs (os := o' :: os) hg hhead
    simp only [] at hgl'
    have ho' := hos o' (by simp)
    have hrow := rowLoop_rows b count o.rows h3 [] hgl' (by intro hb'; rw [hb hb', ← h2]; simp [Orbital.coefs])
      (.inr (found_contains.2 ho'.1))
    obtain ⟨N, hN⟩ := ih o' (fun x hx => h x (List.mem_cons_of_mem _ hx)) (fun x hx => hos x (List.mem_cons_of_mem _ hx)) true n
      (fun _ => rfl) (by simp) (acc ++ [o.coefs])
    refine ⟨N + o.rows.length + 2, fun fuel => ?_⟩
    rw [show fuel + (N + o.rows.length + 2) = (fuel + N + o.rows.length + 1) + 1 by omega, coefLoop]
    have := hrow (fuel + N) []
    cases hgl : getline (openText (unlines (o.rows.map (·.1)) ++ (tableText (o' :: os) ++ rest))) [] with
    | mk line fid' =>
      rw [hgl] at this
      simp only [] at this ⊢
      rw [this]
      simp only [Res.ok_bind]
      rw [found_contains.2 ho'.2]
      simp only [Bool.not_true, Bool.false_eq_true, if_false, List.nil_append]
      have hc : (List.flatMap (fun x => x.2) o.rows).length = n := h2
      rw [hc]
      have := hN (fuel + (o.rows.length + 1))
      rw [show fuel + (o.rows.length + 1) + N = fuel + N + o.rows.length + 1 by omega] at this
      refine Eq.trans this ?_
      simp

/-- The reader of coefficients. -/
theorem readCoef_table {spin : Spin} {n : Nat} {o : Orbital α} {os : List (Orbital α)} (h : CoefTable spin n (o :: os))
    {rest l : Str} {fid : Stream} (hg : ∀ prev, getline (openText rest) prev = (l, fid)) (hl : ¬ Contains l spin.name)
    (hlast : os = [] → Contains l (lit " MO OE")) (pos : Option Str) (data : PunData α) :
    ∃ m, ofVecVec ((o :: os).map Orbital.coefs) = .ok m ∧
      Ends (fun fuel => readCoef spin.name fuel ⟨openText (unlines (o.rows.map (·.1)) ++ (tableText os ++ rest)), pos, data⟩)
        (.ok ⟨fid, pos, data.set spin.name m⟩) := by
  obtain ⟨-, -, -, -, h4, h5⟩ := h
  obtain ⟨m, hm, -⟩ := (C04_ofVecVec ((o :: os).map Orbital.coefs)).2.2 o.coefs rfl (by
    intro v hv
    obtain ⟨x, hx, rfl⟩ := List.mem_map.1 hv
    rw [(h5 x hx).2.1, (h5 o (by simp)).2.1])
  refine ⟨m, hm, ?_⟩
  obtain ⟨N, hN⟩ := coefLoop_orbs spin n o os h5 h4 hg hl false 0 (by simp) (fun _ => hlast) []
  refine Ends.of_le N (by simp) (fun fuel => ?_)
  unfold readCoef
  simp only [hN fuel, Res.ok_bind, List.nil_append, hm]

/-! ### the whole file -/

theorem pun_start_plain {l : Str} (h : Pun.Plain l) : startSection (punSections (α := α)).headers l = [] := by
  apply startSection_none
  intro th hth p hp
  have key : p = (lit " 1 Alpha MO ") ∨ p = (lit " 1 Beta MO ") := by
    simp only [punSections, List.mem_cons, List.not_mem_nil, or_false] at hth
    rcases hth with rfl | rfl
    · exact .inl (List.mem_singleton.1 hp)
    · exact .inr (List.mem_singleton.1 hp)
  rcases key with rfl | rfl
  · exact h.2.1
  · exact h.2.2

/-- The tag of the section of a spin. -/
def spinTag : Spin → Str
  | .alpha => (lit "CoefAlpha")
  | .beta => (lit "CoefBeta")

theorem pun_start {spin : Spin} {l : Str} (h : Contains l ((lit " 1 ") ++ spin.name ++ (lit " MO ")))
    (hb : spin = .beta → ¬ Contains l (lit " 1 Alpha MO ")) :
    startSection (punSections (α := α)).headers l = spinTag spin := by
  unfold startSection punSections
  cases spin with
  | alpha =>
    rw [List.find?_cons_of_pos]
    · rfl
    · simp only [List.any_cons, List.any_nil, Bool.or_false]
      exact found_contains.2 h
  | beta =>
    rw [List.find?_cons_of_neg, List.find?_cons_of_pos]
    · rfl
    · simp only [List.any_cons, List.any_nil, Bool.or_false]
      exact found_contains.2 h
    · simp only [List.any_cons, List.any_nil, Bool.or_false]
      rw [not_found_contains.2 (hb rfl)]; simp

/-- The spins for which there are coefficients, in the order of the map. -/
def spinKeys (a b : Bool) : List Str := (if a then [Spin.alpha.name] else []) ++ (if b then [Spin.beta.name] else [])

/-- The keys of the map of coefficients. -/
def punKeys (d : PunData α) : List Str := d.map (·.1)

theorem punKeys_set (d : PunData α) (k : Str) (v : Mat α) : punKeys (d.set k v) = strSetInsert k (punKeys d) := by
  unfold punKeys
  induction d with
  | nil => rfl
  | cons p m ih =>
    obtain ⟨k', v'⟩ := p
    unfold Map.set
    simp only [List.map_cons]
    unfold strSetInsert
    split
    · rename_i h; subst h; rfl
    · split
      · rfl
      · simp [ih]

theorem insert_spin (a b : Bool) (spin : Spin) :
    strSetInsert spin.name (spinKeys a b) = spinKeys (a || decide (spin = .alpha)) (b || decide (spin = .beta)) := by
  cases a <;> cases b <;> cases spin <;> decide

theorem punKeys_spin {d : PunData α} {a b : Bool} (h : punKeys d = spinKeys a b) (spin : Spin) (m : Mat α) :
    punKeys (d.set spin.name m) = spinKeys (a || decide (spin = .alpha)) (b || decide (spin = .beta)) := by
  rw [punKeys_set, h, insert_spin]

/-- What reading some pieces does. -/
def PunEffect (ps : List (Pun.Piece α)) (e : Ending α) (d d' : PunData α) : Prop :=
  (∀ spin : Spin, match lastTable spin ps e with
    | none => d'.get spin.name = d.get spin.name
    | some orbs => ∃ m, d'.get spin.name = some m ∧ ofVecVec (orbs.map Orbital.coefs) = .ok m) ∧
  ∀ a b, punKeys d = spinKeys a b →
    punKeys d' = spinKeys (a || (lastTable .alpha ps e).isSome) (b || (lastTable .beta ps e).isSome)

theorem spin_inj {a b : Spin} (h : a.name = b.name) : a = b := by
  cases a <;> cases b <;> first | rfl | (exact absurd h (by decide))

theorem table_text_cons (o : Orbital α) (os : List (Orbital α)) (rest : Str) :
    tableText (o :: os) ++ rest = o.header ++ '\n' :: (unlines (o.rows.map (·.1)) ++ (tableText os ++ rest)) := by
  simp [tableText, Orbital.lines, unlines_append, unlines_cons]

theorem run_pun (ps : List (Pun.Piece α)) (e : Ending α) (h : PunFile ps e) (d : PunData α) :
    ∃ d', PunEffect ps e d d' ∧ Ends (runFrom punSections (punText ps e) d) (.ok d') := by
  induction ps generalizing d with
  | nil =>
    unfold punText
    simp only [List.flatMap_nil, List.nil_append]
    cases e with
    | rest t =>
      refine ⟨d, ⟨fun spin => rfl, fun a b h => by simpa [lastTable] using h⟩, ?_⟩
      rcases h.2 with rfl | hp
      · exact run_end _ d
      · by_cases he : t = []
        · rw [he]; exact run_end _ d
        · exact Ends.of_le 2 (by simp) (fun fuel => runFrom_last _ hp.1 he (pun_start_plain hp) d fuel)
    | table spin n orbs =>
      obtain ⟨ht, h2⟩ := h.2
      cases orbs with
      | nil => exact absurd rfl ht.1
      | cons o os =>
        have hst := pun_start (α := α) (ht.2.2.1 o rfl) (fun hb => ht.2.2.2.1 hb o rfl)
        obtain ⟨m, hm, hends⟩ := readCoef_table ht (rest := []) (fun prev => getline_end prev)
          (by rintro ⟨x, y, e⟩; cases spin <;> simp [Spin.name] at e)
          (by rintro rfl; simp at h2) (some (Ending.text (.table spin n (o :: os)))) d
        refine ⟨d.set spin.name m, ⟨?_, fun a b h => ?_⟩, ?_⟩
        rotate_left
        · rw [punKeys_spin h spin m]
          cases spin <;> simp [lastTable]
        rotate_left
        · intro s
          simp only [lastTable]
          by_cases hs : spin = s
          · subst hs; rw [if_pos rfl]; exact ⟨m, by simp [Map.get_set], hm⟩
          · rw [if_neg hs]
            simp only [Map.get_set]
            rw [if_neg (fun e => hs (spin_inj e.symm))]
        · have etx : Ending.text (.table spin n (o :: os)) =
              o.header ++ '\n' :: (unlines (o.rows.map (·.1)) ++ (tableText os ++ [])) := by
            rw [← table_text_cons, List.append_nil]; rfl
          rw [etx] at hends ⊢
          have hline := (ht.2.2.2.2.2 o (by simp)).1
          cases spin
          · exact run_section_bad _ hline hst (by decide) rfl hends (.inl rfl)
          · exact run_section_bad _ hline hst (by decide) rfl hends (.inl rfl)
  | cons p ps ih =>
    obtain ⟨hok, he⟩ := h
    have hp := hok p (by simp)
    have hrest : PunFile ps e := ⟨fun q hq => hok q (by simp [hq]), he⟩
    have etext : punText (p :: ps) e = p.text ++ punText ps e := by simp [punText]
    rw [etext]
    cases p with
    | plain l =>
      obtain ⟨d', e1, e2⟩ := ih hrest d
      refine ⟨d', e1, ?_⟩
      have : Pun.Piece.text (α := α) (.plain l) ++ punText ps e = l ++ '\n' :: punText ps e := by simp [Pun.Piece.text]
      rw [this]
      exact run_boring _ hp.1 (pun_start_plain hp) e2
    | coefs spin n orbs next =>
      obtain ⟨ht, hl, hf1, hf2⟩ := hp
      cases orbs with
      | nil => exact absurd rfl ht.1
      | cons o os =>
        have hst := pun_start (α := α) (ht.2.2.1 o rfl) (fun hb => ht.2.2.2.1 hb o rfl)
        have etx : Pun.Piece.text (.coefs spin n (o :: os) next) ++ punText ps e =
            o.header ++ '\n' :: (unlines (o.rows.map (·.1)) ++ (tableText os ++ (next ++ '\n' :: punText ps e))) := by
          rw [← table_text_cons]; simp [Pun.Piece.text]
        rw [etx]
        obtain ⟨m, hm, hends⟩ := readCoef_table ht (rest := next ++ '\n' :: punText ps e)
          (fun prev => getline_line hl (punText ps e) prev) hf1 (by rintro rfl; exact hf2 rfl)
          (some (o.header ++ '\n' :: (unlines (o.rows.map (·.1)) ++ (tableText os ++ (next ++ '\n' :: punText ps e))))) d
        obtain ⟨d', e1, e2⟩ := ih hrest (d.set spin.name m)
        refine ⟨d', ⟨?_, fun a b h => ?_⟩, ?_⟩
        rotate_left
        · rw [e1.2 _ _ (punKeys_spin h spin m)]
          cases spin <;> simp [lastTable]
        rotate_left
        · intro s
          have := e1.1 s
          simp only [lastTable]
          by_cases hs : spin = s
          · subst hs
            rw [if_pos rfl]
            cases hlt : lastTable spin ps e with
            | none =>
              rw [hlt] at this
              simp only [Map.get_set, if_true] at this
              exact ⟨m, this, hm⟩
            | some orbs' => rw [hlt] at this; exact this
          · rw [if_neg hs]
            cases hlt : lastTable s ps e with
            | none =>
              rw [hlt] at this
              simp only [Map.get_set] at this
              rw [if_neg (fun e => hs (spin_inj e.symm))] at this
              exact this
            | some orbs' => rw [hlt] at this; exact this
        · have hline := (ht.2.2.2.2.2 o (by simp)).1
          cases spin
          · exact run_section _ hline hst (by decide) rfl hends e2
          · exact run_section _ hline hst (by decide) rfl hends e2

end Verif.Readers
