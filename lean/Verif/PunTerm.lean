import Verif.LogTerm
/-
Termination of reading a punch file that need not be well formed, but is closed by a line that looks like the line above the
coefficients of an orbital of no spin.
-/
namespace Verif.Readers
open Strings Log Pun

variable {α : Type} [Mul α] [Num α]

omit [Mul α] [Num α] in
theorem ofVecVecInner_halts (cols r : Int) (b : Buf α) (c : Int) (v : List α) : Halts (Mat.ofVecVecInner cols r b c v) := by
  induction v generalizing b c with
  | nil => exact .ok _
  | cons x v ih => rw [Mat.ofVecVecInner]; exact (write_halts _ _ _).bind fun b _ => ih _ _

omit [Mul α] [Num α] in
theorem ofVecVecLoop_halts (cols : Int) (b : Buf α) (r : Int) (vv : List (List α)) : Halts (Mat.ofVecVecLoop cols b r vv) := by
  induction vv generalizing b r with
  | nil => exact .ok _
  | cons v vv ih =>
    rw [Mat.ofVecVecLoop]
    split
    · exact .throw _
    · exact (ofVecVecInner_halts _ _ _ _ _).bind fun b _ => ih _ _

omit [Mul α] [Num α] in
theorem ofVecVec_halts (rows : List (List α)) : Halts (Mat.ofVecVec rows) :=
  (vecAt_halts _ _).bind fun _ _ => (ofVecVecLoop_halts _ _ _ _).bind fun _ _ => .ok _

theorem gausLoop_halts (line : Str) (n indent : Nat) (hi : indent ≤ line.length) (hn : line.length < n + indent) (values : List α) :
    Halts (gausLoop line n indent values) := by
  induction n generalizing indent values with
  | zero => omega
  | succ n ih =>
    rw [gausLoop]
    by_cases h : toSize ((line.length : Int) - indent) ≥ 15
    · rw [if_pos h]
      refine (substr_halts _ _ _).bind fun s _ => (stod_halts _).bind fun d _ => (substr_halts _ _ _).bind fun s _ =>
        (stod_halts _).bind fun d2 _ => ih _ ?_ (by omega) _
      by_cases h2 : indent + 15 ≤ line.length
      · exact h2
      · exfalso
        unfold toSize at h
        omega
    · rw [if_neg h]; exact .ok _

theorem readGaus_halts (line : Str) : Halts (readGausCoefLine line : Res (List α)) :=
  gausLoop_halts line _ 0 (by omega) (by omega) _

/-- Where the loop over the lines of an orbital may leave the reader, when the file is closed by `s`. -/
def OrbitalExit (s : Str) (ls : List Str) (x : Stream × Str × List α) : Prop :=
  (∃ ls', ls' ++ [s] <:+ ls ∧ x.1 = openText (unlines (ls' ++ [s]))) ∨ (x.1 = openText [] ∧ x.2.1 = s)

theorem rowLoop_stops {s : Str} (hs : IsLine s) (hmo : Contains s (lit " MO OE")) (ls : List Str) (hl : ∀ l ∈ ls, IsLine l)
    (b : Bool) (count : Nat) (line : Str) (row : List α) :
    EndsWith (fun n => rowLoop b count n (openText (unlines (ls ++ [s]))) line row) (OrbitalExit s (ls ++ [s])) := by
  have hfs : foundSubStrInStr s moPattern = true := found_contains.2 hmo
  have stop : ∀ (ls : List Str) (line : Str) (row : List α), (foundSubStrInStr line moPattern = true ∨ (b && row.length ≥ count) = true) →
      EndsWith (fun n => rowLoop b count n (openText (unlines (ls ++ [s]))) line row) (OrbitalExit s (ls ++ [s])) := by
    intro ls line row h
    refine EndsWith.now _ (.ok (openText (unlines (ls ++ [s])), line, row)) (fun fuel => ?_) ?_
    · rw [rowLoop]
      by_cases h1 : foundSubStrInStr line moPattern = true
      · rw [if_pos h1]
      · rw [if_neg h1, if_pos (h.resolve_left h1)]
    · intro a ha; injection ha with ha; subst ha
      exact .inl ⟨ls, List.suffix_refl _, rfl⟩
  induction ls generalizing line row with
  | nil =>
    by_cases h1 : foundSubStrInStr line moPattern = true
    · exact stop _ _ _ (.inl h1)
    by_cases h2 : (b && row.length ≥ count) = true
    · exact stop _ _ _ (.inr h2)
    refine EndsWith.step (g := fun n => _) (fun fuel => by rw [rowLoop, if_neg h1, if_neg h2]) ?_
    refine EndsWith.bindConst (readGaus_halts _) fun coef _ => ?_
    have e : getline (openText (unlines ([] ++ [s]))) line = (s, openText []) := by
      rw [List.nil_append, unlines_cons, getline_line hs]; rfl
    simp only [e]
    refine EndsWith.now _ (.ok (openText [], s, row ++ coef)) (fun fuel => ?_) ?_
    · rw [rowLoop, if_pos hfs]
    · intro a ha; injection ha with ha; subst ha
      exact .inr ⟨rfl, rfl⟩
  | cons l r ih =>
    by_cases h1 : foundSubStrInStr line moPattern = true
    · exact stop _ _ _ (.inl h1)
    by_cases h2 : (b && row.length ≥ count) = true
    · exact stop _ _ _ (.inr h2)
    refine EndsWith.step (g := fun n => _) (fun fuel => by rw [rowLoop, if_neg h1, if_neg h2]) ?_
    refine EndsWith.bindConst (readGaus_halts _) fun coef _ => ?_
    have e : getline (openText (unlines (l :: r ++ [s]))) line = (l, openText (unlines (r ++ [s]))) := by
      rw [List.cons_append, unlines_cons, getline_line (hl l (by simp))]
    simp only [e]
    refine (ih (fun x hx => hl x (by simp [hx])) l (row ++ coef)).mono ?_
    rintro a (⟨ls', h1, h2⟩ | h)
    · exact .inl ⟨ls', h1.trans (List.suffix_cons _ _), h2⟩
    · exact .inr h

theorem coefLoop_stops {s : Str} (hs : IsLine s) (hmo : Contains s (lit " MO OE")) (orbType : Str) (hot : ¬ Contains s orbType)
    (k : Nat) (ls : List Str) (hk : ls.length ≤ k) (hl : ∀ l ∈ ls, IsLine l) (b : Bool) (count : Nat) (v : List (List α)) :
    EndsWith (fun n => coefLoop orbType n b count (openText (unlines (ls ++ [s]))) v)
      (fun x => ∃ ls', ls' <:+ ls ++ [s] ∧ x.1 = openText (unlines ls')) := by
  have hfs : foundSubStrInStr s moPattern = true := found_contains.2 hmo
  have hns : foundSubStrInStr s orbType = false := not_found_contains.2 hot
  induction k generalizing ls b count v with
  | zero =>
    have : ls = [] := List.eq_nil_of_length_eq_zero (by omega)
    subst this
    have e : getline (openText (unlines ([] ++ [s]))) [] = (s, openText []) := by
      rw [List.nil_append, unlines_cons, getline_line hs]; rfl
    refine EndsWith.step (g := fun n => _) (fun fuel => by rw [coefLoop]) ?_
    simp only [e]
    refine EndsWith.bind (P := fun x => x = (openText [], s, ([] : List α))) ?_ ?_
    · refine EndsWith.now _ (.ok (openText [], s, [])) (fun fuel => ?_) ?_
      · rw [rowLoop, if_pos hfs]
      · intro a ha; injection ha with ha; exact ha.symm
    · rintro _ rfl
      simp only [hns]
      refine EndsWith.const _ (.ok _) ?_
      intro a ha; injection ha with ha; subst ha
      exact ⟨[], List.nil_suffix, rfl⟩
  | succ k ih =>
    cases ls with
    | nil => exact ih [] (by simp) hl b count v
    | cons l r =>
      have hlr : ∀ x ∈ r, IsLine x := fun x hx => hl x (by simp [hx])
      have e : getline (openText (unlines (l :: r ++ [s]))) [] = (l, openText (unlines (r ++ [s]))) := by
        rw [List.cons_append, unlines_cons, getline_line (hl l (by simp))]
      refine EndsWith.step (g := fun n => _) (fun fuel => by rw [coefLoop]) ?_
      simp only [e]
      refine EndsWith.bind (rowLoop_stops hs hmo r hlr b count l []) ?_
      rintro ⟨fid, line, row⟩ hx
      simp only []
      by_cases hf : foundSubStrInStr line orbType = true
      · simp only [hf, Bool.not_true, if_false]
        rcases hx with ⟨ls', hsuf, rfl⟩ | ⟨-, rfl⟩
        · have hlen := hsuf.length_le
          simp only [List.length_append, List.length_cons, List.length_nil] at hlen hk
          have hsub : ls' <:+ r := by
            obtain ⟨pre, hpre⟩ := hsuf
            rw [← List.append_assoc] at hpre
            exact ⟨pre, List.append_cancel_right hpre⟩
          refine (ih ls' (by omega) (fun x hx => hlr x (hsub.subset hx)) true row.length _).mono ?_
          rintro a ⟨ls'', h1, h2⟩
          exact ⟨ls'', h1.trans (hsuf.trans (List.suffix_cons _ _)), h2⟩
        · rw [hns] at hf; cases hf
      · simp only [hf]
        refine EndsWith.const _ (.ok _) ?_
        intro a ha; injection ha with ha; subst ha
        rcases hx with ⟨ls', hsuf, rfl⟩ | ⟨rfl, -⟩
        · exact ⟨ls' ++ [s], hsuf.trans (List.suffix_cons _ _), rfl⟩
        · exact ⟨[], List.nil_suffix, rfl⟩

theorem pun_start_cases {l tag : Str} (h : startSection (punSections (α := α)).headers l = tag) (hne : tag ≠ []) :
    ∃ spin : Spin, tag = spinTag spin ∧ Contains l ((lit " 1 ") ++ spin.name ++ (lit " MO ")) := by
  have e : (punSections (α := α)).headers = [((lit "CoefAlpha"), [(lit " 1 Alpha MO ")]), ((lit "CoefBeta"), [(lit " 1 Beta MO ")])] := rfl
  rw [e] at h
  unfold startSection at h
  split at h
  · rename_i th hth
    subst h
    have hm := List.mem_of_find?_eq_some hth
    have hp := List.find?_some hth
    simp only [List.mem_cons, List.not_mem_nil, or_false] at hm
    rcases hm with rfl | rfl
    · exact ⟨.alpha, rfl, by simpa [found_contains, Spin.name] using hp⟩
    · exact ⟨.beta, rfl, by simpa [found_contains, Spin.name] using hp⟩
  · exact absurd h.symm hne

theorem pun_stops (ls : List Str) (hl : ∀ l ∈ ls, IsLine l) (hg : PunGuard ls) (d : PunData α) :
    ∃ out, Ends (runFrom punSections (unlines ls) d) out := by
  obtain ⟨init, s, rfl, hmo, hsp⟩ := hg
  have hs : IsLine s := hl s (by simp)
  refine run_stops punSections (fun x => x <:+ init ++ [s]) (fun a b h hb => h.trans hb) ?_ _ hl (List.suffix_refl _) d
  intro l ls tag f hline hsuf htag hne hf hls data
  obtain ⟨spin, rfl, hc⟩ := pun_start_cases (α := α) htag hne
  have hreader : f = readCoef spin.name := by
    have e : (punSections (α := α)).readers.get (spinTag spin) = some (readCoef spin.name) := by cases spin <;> rfl
    rw [e] at hf; injection hf with hf; exact hf.symm
  subst hreader
  obtain ⟨ls', rfl⟩ : ∃ ls', ls = ls' ++ [s] := by
    obtain ⟨pre, hpre⟩ := hsuf
    rcases List.eq_nil_or_concat ls with rfl | ⟨ls', x, rfl⟩
    · exfalso
      have : pre = init ∧ l = s := by simpa using List.append_inj' hpre rfl
      obtain ⟨-, rfl⟩ := this
      apply hsp spin
      obtain ⟨x, y, rfl⟩ := hc
      exact ⟨x ++ (lit " 1 "), (lit " MO ") ++ y, by simp⟩
    · refine ⟨ls', ?_⟩
      have : (pre ++ l :: ls') ++ [x] = init ++ [s] := by rw [← hpre]; simp
      have := (List.append_inj' this rfl).2
      simp at this
      rw [List.concat_eq_append, this]
  have hls' : ∀ x ∈ ls', IsLine x := fun x hx => hls x (by simp [hx])
  have := EndsWith.bind (coefLoop_stops (α := α) hs hmo spin.name (hsp spin) ls'.length ls' (Nat.le_refl _) hls' false 0 [])
    (g := fun _ x => Mat.ofVecVec x.2 >>= fun m => Res.ok (⟨x.1, some (unlines (l :: (ls' ++ [s]))), data.set spin.name m⟩ : FR (PunData α)))
    (Q := fun (r : FR (PunData α)) => (r.fid.eof = true ∨ r.fid.fail = true) ∨
      ∃ ls'', ls'' <:+ ls' ++ [s] ∧ r.fid = openText (unlines ls'')) (by
      rintro ⟨fid, v⟩ h
      refine EndsWith.bindConst (ofVecVec_halts _) fun m _ => EndsWith.const _ (.ok _) ?_
      intro a ha; injection ha with ha; subst ha
      exact .inr h)
  exact this

end Verif.Readers
