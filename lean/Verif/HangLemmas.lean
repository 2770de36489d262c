import Verif.PunTerm
import Verif.Props.Strings
/-
Files on which reading never ends.
-/
namespace Verif.Readers
open Strings Log Pun Mat

theorem Hangs.bind {β γ : Type} {f : Nat → Res β} {g : Nat → β → Res γ} (h : Hangs f) : Hangs (fun n => f n >>= g n) := by
  intro n
  show (f n >>= g n) = _
  rw [h n]; rfl

/-- A loop that, whatever its state of a certain kind, goes on in a state of that kind. -/
theorem hangs_loop {σ β : Type} (f : Nat → σ → Res β) (h0 : ∀ s, f 0 s = .diverge) (P : σ → Prop)
    (hs : ∀ n s, P s → ∃ s', P s' ∧ f (n + 1) s = f n s') (s : σ) (h : P s) : Hangs (fun n => f n s) := by
  intro n
  induction n generalizing s with
  | zero => exact h0 s
  | succ n ih =>
    obtain ⟨s', h', e⟩ := hs n s h
    show f (n + 1) s = _
    rw [e]; exact ih s' h'

/-! ### energies -/

section
variable {α : Type} [Mul α] [Num α] [Zero α]

/-- The tag of the section of a spin. -/
def energyTag : Spin → Str
  | .alpha => (lit "OEAlpha")
  | .beta => (lit "OEBeta")

/-- A line that announces energies but is no line of energies is read again and again. -/
theorem energies_hang (spin : Spin) {l rest : Str} (hl : IsLine l)
    (ht : startSection (logSections (α := α)).headers l = (energyTag spin))
    (hn : NoEnergyLine spin l) (d : LogData α) : Hangs (runFrom logSections (l ++ '\n' :: rest) d) := by
  intro fuel
  induction fuel using Nat.strongRecOn generalizing d with
  | _ fuel ih =>
    cases fuel with
    | zero => rfl
    | succ fuel =>
      have hreader : ∀ pos, ∃ f : SectionReader (LogData α), (logSections (α := α)).readers.get
          (energyTag spin) = some f ∧
          f fuel ⟨openText rest, pos, d⟩ = readOrbEnergies spin.name fuel ⟨seekg (openText rest) pos, pos, d⟩ := by
        intro pos
        cases spin with
        | alpha => exact ⟨alphaReader, rfl, rfl⟩
        | beta => exact ⟨betaReader, rfl, rfl⟩
      obtain ⟨f, hf, he⟩ := hreader (some (l ++ '\n' :: rest))
      rw [runFrom_section _ hl ht (by cases spin <;> simp [energyTag]) hf, he]
      have hsk : seekg (openText rest) (some (l ++ '\n' :: rest)) = openText (l ++ '\n' :: rest) := rfl
      rw [hsk]
      unfold readOrbEnergies
      cases fuel with
      | zero => rfl
      | succ fuel =>
        unfold energiesLoop
        simp only [getline_line hl]
        rw [if_neg (by simp [openText])]
        have h1 := not_found_contains.2 hn.1
        have h2 := not_found_contains.2 hn.2
        rw [h1, h2]
        simp only [Bool.or_false, Bool.false_eq_true, if_false, Res.ok_bind]
        rw [show seekg (openText rest) (some (l ++ '\n' :: rest)) = openText (l ++ '\n' :: rest) from rfl, continueFrom_open]
        exact ih _ (by omega) _

/-! ### populations -/

/-- At the end of the text the loop over the functions of an atom never ends. -/
theorem aoRows_hang (atom : Int) (elem : Str) (fid : Stream) (hb : fid.eof = true ∨ fid.fail = true) (pos : Option Str)
    (data : LogData α) (e2 ot : Str) (h : isAlphabetical e2 = false) (htrim : trimmed e2 = e2) :
    Hangs (fun n => aoRows atom elem n ⟨fid, pos, data⟩ [] e2 ot) := by
  intro n
  induction n generalizing fid data with
  | zero => rfl
  | succ n ih =>
    show aoRows atom elem (n + 1) _ _ _ _ = _
    rw [aoRows, if_neg (by simp [h])]
    have x1 : ∀ w, extract (openText []) w = (w, ⟨[], true, true⟩) := fun w => rfl
    have x2 : ∀ w, extract ⟨[], true, true⟩ w = (w, ⟨[], true, true⟩) := fun w => rfl
    have x3 : ∀ (acc : List α), restOf (pushBack Num.stod) ⟨[], true, true⟩ acc = .ok acc := fun acc => rfl
    simp only [x1, x2, x3, Res.ok_bind, getline_bad hb, htrim]
    rw [if_neg (by decide)]
    exact ih _ (.inr rfl) _

/-- The rows of a population table that is cut off after a further function of an atom. -/
theorem aoRows_cut (atom : Int) (elem : Str) (f : Fn α) (fs : List (Fn α)) (h : ∀ x ∈ f :: fs, FurtherRow x) (pos : Option Str)
    (data : LogData α) (e2 ot : Str) (he2 : isAlphabetical e2 = false) (htrim : trimmed e2 = e2) :
    Hangs (fun n => aoRows atom elem n ⟨openText (unlines (fs.map (·.text))), pos, data⟩ f.text e2 ot) := by
  intro n
  induction fs generalizing n f data e2 ot with
  | nil =>
    cases n with
    | zero => rfl
    | succ n =>
      obtain ⟨-, -, ⟨no, ws, hw, hne, hp⟩, -⟩ := h f (by simp)
      obtain ⟨w, ws, rfl⟩ : ∃ w ws', ws = w :: ws' := by cases ws with
        | nil => exact absurd rfl hne
        | cons w ws' => exact ⟨w, ws', rfl⟩
      obtain ⟨r1, r2, r3, x1, x2, -, -, x5, -, -, x8, -⟩ := third_word hw []
      show aoRows atom elem (n + 1) _ _ _ _ = _
      rw [aoRows, if_neg (by simp [he2])]
      have y1 : ∀ w, extract (openText []) w = (w, ⟨[], true, true⟩) := fun w => rfl
      have y2 : ∀ w, extract ⟨[], true, true⟩ w = (w, ⟨[], true, true⟩) := fun w => rfl
      simp only [x1, x2, populations_read hp x5 x8, Res.ok_bind, List.map_nil, unlines_nil, getline_end, y1, y2, htrim]
      rw [if_neg (by decide)]
      exact aoRows_hang atom elem _ (.inl rfl) _ _ _ _ he2 htrim n
  | cons f' fs ih =>
    cases n with
    | zero => rfl
    | succ n =>
      obtain ⟨-, -, ⟨no, ws, hw, hne, hp⟩, -⟩ := h f (by simp)
      obtain ⟨w, ws, rfl⟩ : ∃ w ws', ws = w :: ws' := by cases ws with
        | nil => exact absurd rfl hne
        | cons w ws' => exact ⟨w, ws', rfl⟩
      obtain ⟨r1, r2, r3, x1, x2, -, -, x5, -, -, x8, -⟩ := third_word hw []
      obtain ⟨hl, hnc, ⟨no', ws', hw', hne', hp'⟩, -⟩ := h f' (by simp)
      obtain ⟨w', ws', rfl⟩ : ∃ w ws'', ws' = w :: ws'' := by cases ws' with
        | nil => exact absurd rfl hne'
        | cons w ws' => exact ⟨w, ws', rfl⟩
      obtain ⟨y1, y2, y3, z1, z2, z3, -⟩ := third_word hw' e2
      show aoRows atom elem (n + 1) _ _ _ _ = _
      rw [aoRows, if_neg (by simp [he2])]
      simp only [x1, x2, populations_read hp x5 x8, Res.ok_bind, List.map_cons, unlines_cons, getline_line hl, z1, z2, z3]
      have hnc : foundSubStrInStr f'.text aoEnd = false := not_found_contains.2 hnc
      have hns := trimmed_word (word_no_space hw'.1 w' (by simp))
      rw [if_neg (by rw [hnc]; simp), hns]
      have hnl := not_alphabetical (hp'.2 0 (by simp) (by rw [← hp'.1]; simp)).2
      simp only [List.getElem_cons_zero] at hnl
      exact ih f' (fun x hx => h x (by simp only [List.mem_cons] at hx ⊢; exact .inr hx)) _ w' _ hnl hns n

/-- A population table cut off after a further function of its first atom. -/
theorem population_hang (a : Atom α) (ha : AtomRows a) (hm : a.more ≠ []) {header l2 : Str} (hh : IsLine header)
    (hc : Contains header (lit "     Gross orbital populations:")) (h2 : IsLine l2) (d : LogData α) :
    Hangs (runFrom logSections (unlines (header :: l2 :: a.fns.map (·.text))) d) := by
  obtain ⟨f, fs, hmore⟩ : ∃ f fs, a.more = f :: fs := by cases hx : a.more with
    | nil => exact absurd hx hm
    | cons f fs => exact ⟨f, fs, rfl⟩
  rw [unlines_cons]
  have hreader : (logSections (α := α)).readers.get (lit "AOFunction") = some aoReader := rfl
  refine hang_section _ hh (start_population hc) (by simp) hreader ?_
  obtain ⟨⟨h1, -, -, ⟨no, atm, ws, h4, hp⟩, -⟩, hrows⟩ := ha
  obtain ⟨hl, -, -, left', right', hd1, hd2⟩ := hrows f (by rw [hmore]; simp)
  intro n
  simp only [Atom.fns, hmore, List.map_cons, unlines_cons]
  unfold aoReader
  simp only [getline_line h2, getline_line h1]
  cases n with
  | zero => rfl
  | succ n =>
    obtain ⟨r1, r2, r3, x1, x2, x3, -, -, x6, -, -, x9⟩ := third_word h4 []
    obtain ⟨r4, y1, y2, y3⟩ := extract_after x6 x9 []
    rw [aoAtoms]
    simp only [x1, x2, x3, y1, populations_read hp y2 y3, Res.ok_bind, getline_line hl]
    have v := vecAt_left (a := ' ') (b := ' ') (right := right') hd2
    rw [← hd1] at v
    rw [v.1, v.2]
    simp only [Res.ok_bind]
    rw [trimmed_blanks]
    have hcut := aoRows_cut 1 a.elem f fs (fun x hx => hrows x (by rw [hmore]; exact hx))
    have := fun pos data ot => hcut pos data [] ot (by decide) (by decide) n
    simp only [] at this
    rw [this]
    rfl

/-! ### coordinates -/

theorem coordLoop_pass (row : Str × α × α × α) (h : CoordRow row) (fid : Stream) (X Y Z : List α) (n : Nat) :
    coordLoop (n + 1) fid row.1 X Y Z = coordLoop n (getline fid row.1).2 (getline fid row.1).1
      (X ++ [row.2.1]) (Y ++ [row.2.2.1]) (Z ++ [row.2.2.2]) := by
  obtain ⟨h1, h2, a, b, c, x, y, z, more, h3, h4, h5, h6⟩ := h
  conv => lhs; unfold coordLoop
  have hnc : foundSubStrInStr row.1 coordEnd = false := not_found_contains.2 h2
  rw [hnc, h3.split]
  have v3 := vecAt_nat (a :: b :: c :: x :: y :: z :: more) 3 (by simp)
  have v4 := vecAt_nat (a :: b :: c :: x :: y :: z :: more) 4 (by simp)
  have v5 := vecAt_nat (a :: b :: c :: x :: y :: z :: more) 5 (by simp)
  simp only [Bool.false_eq_true, if_false]
  rw [show (3 : Int) = ((3 : Nat) : Int) from rfl, v3, show (4 : Int) = ((4 : Nat) : Int) from rfl, v4,
    show (5 : Int) = ((5 : Nat) : Int) from rfl, v5]
  simp only [Res.ok_bind, List.getElem_cons_succ, List.getElem_cons_zero, h4, h5, h6]

theorem coordLoop_dead (row : Str × α × α × α) (h : CoordRow row) (fid : Stream) (hb : fid.eof = true ∨ fid.fail = true)
    (X Y Z : List α) : Hangs (fun n => coordLoop n fid row.1 X Y Z) := by
  intro n
  induction n generalizing fid X Y Z with
  | zero => rfl
  | succ n ih =>
    show coordLoop (n + 1) _ _ _ _ _ = _
    rw [coordLoop_pass row h, getline_bad hb]
    exact ih _ (.inr rfl) _ _ _

theorem coordRow_ne {row : Str × α × α × α} (h : CoordRow row) : row.1 ≠ [] := by
  obtain ⟨h1, h2, a, b, c, x, y, z, more, h3, -⟩ := h
  intro e
  have := h3.split
  rw [e] at this
  cases this

/-- Rows, the last of them without an end. -/
theorem coordLoop_cut (rows : List (Str × α × α × α)) (last : Str × α × α × α) (h : ∀ r ∈ rows, CoordRow r) (hl : CoordRow last)
    (X Y Z : List α) (prev : Str) :
    Hangs (fun n => coordLoop n (getline (openText (unlines (rows.map (·.1)) ++ last.1)) prev).2
      (getline (openText (unlines (rows.map (·.1)) ++ last.1)) prev).1 X Y Z) := by
  induction rows generalizing X Y Z prev with
  | nil =>
    simp only [List.map_nil, unlines_nil, List.nil_append, getline_last hl.1 (coordRow_ne hl)]
    exact coordLoop_dead last hl _ (.inl rfl) X Y Z
  | cons r rows ih =>
    simp only [List.map_cons, unlines_cons_append, getline_line (h r (by simp)).1]
    exact Hangs.succ rfl (fun n => coordLoop_pass r (h r (by simp)) _ X Y Z n) (ih (fun x hx => h x (by simp [hx])) _ _ _ _)

/-- A coordinate table cut off within a row. -/
theorem coords_hang {header l2 l3 : Str} (hh : CoordHeader header) (h2 : IsLine l2) (h3 : IsLine l3)
    (rows : List (Str × α × α × α)) (last : Str × α × α × α) (h : ∀ r ∈ rows, CoordRow r) (hl : CoordRow last) (d : LogData α) :
    Hangs (runFrom logSections (unlines (header :: l2 :: l3 :: rows.map (·.1)) ++ last.1) d) := by
  rw [unlines_cons_append]
  have hreader : (logSections (α := α)).readers.get (lit "Coord") = some coordReader := rfl
  refine hang_section _ hh.1 (start_coords hh) (by simp) hreader ?_
  intro n
  show coordReader n _ = _
  unfold coordReader
  simp only [unlines_cons_append, getline_line h2, getline_line h3]
  have := coordLoop_cut rows last h hl [] [] [] l3 n
  simp only [] at this
  cases hg : getline (openText (unlines (rows.map (·.1)) ++ last.1)) l3 with
  | mk line fid =>
    rw [hg] at this
    simp only [] at this ⊢
    rw [this]
    rfl

end

/-! ### coefficients -/

section
variable {α : Type} [Mul α] [Num α]

/-- At the end of the text an orbital is never complete. -/
theorem rowLoop_dead (b : Bool) (count : Nat) (fid : Stream) (hb : fid.eof = true ∨ fid.fail = true) (row : List α)
    (h : b = true → row.length < count) : Hangs (fun n => rowLoop b count n fid [] row) := by
  intro n
  induction n generalizing fid with
  | zero => rfl
  | succ n ih =>
    show rowLoop b count (n + 1) _ _ _ = _
    rw [rowLoop, if_neg (by decide), if_neg (by
      intro hc
      simp only [Bool.and_eq_true, decide_eq_true_eq] at hc
      have := h hc.1
      omega)]
    have e : readGausCoefLine ([] : Str) = (Res.ok [] : Res (List α)) := rfl
    rw [e]
    simp only [Res.ok_bind, getline_bad hb, List.append_nil]
    exact ih _ (.inr rfl)

theorem rowLoop_cut (b : Bool) (count : Nat) (rows : List (Str × List α)) (h : ∀ r ∈ rows, CoefLine r.1 r.2)
    (row : List α) (hcount : b = true → row.length + (rows.flatMap (·.2)).length < count) (prev : Str) :
    Hangs (fun n => rowLoop b count n (getline (openText (unlines (rows.map (·.1)))) prev).2
        (getline (openText (unlines (rows.map (·.1)))) prev).1 row) := by
  induction rows generalizing row prev with
  | nil =>
    simp only [List.map_nil, unlines_nil, getline_end]
    exact rowLoop_dead b count _ (.inl rfl) row (by simpa using hcount)
  | cons r rows ih =>
    have h1 := h r (by simp)
    simp only [List.map_cons, unlines_cons, getline_line h1.1]
    have hnp : foundSubStrInStr r.1 moPattern = false := not_found_contains.2 h1.2.2.1
    refine Hangs.succ rfl (g := fun n => rowLoop b count n (getline (openText (unlines (rows.map (·.1)))) r.1).2
        (getline (openText (unlines (rows.map (·.1)))) r.1).1 (row ++ r.2)) (fun fuel => ?_)
      (ih (fun x hx => h x (by simp [hx])) (row ++ r.2) (by
        intro hb
        have := hcount hb
        simp only [List.flatMap_cons, List.length_append] at this ⊢
        omega) r.1)
    rw [rowLoop, if_neg (by simp [hnp]), if_neg, coefLine_read h1]
    · rfl
    · intro hc
      simp only [Bool.and_eq_true, decide_eq_true_eq] at hc
      have := hcount hc.1
      omega

/-- More steps do not change how an orbital is read. -/
theorem rowLoop_mono (b : Bool) (count : Nat) (n k : Nat) (fid : Stream) (line : Str) (row : List α)
    (h : rowLoop b count n fid line row ≠ .diverge) : rowLoop b count (n + k) fid line row = rowLoop b count n fid line row := by
  induction n generalizing fid line row with
  | zero => exact absurd rfl h
  | succ n ih =>
    rw [show n + 1 + k = (n + k) + 1 by omega]
    rw [rowLoop] at h ⊢
    conv => rhs; rw [rowLoop]
    by_cases h1 : foundSubStrInStr line moPattern = true
    · rw [if_pos h1, if_pos h1]
    · rw [if_neg h1] at h ⊢
      rw [if_neg h1]
      by_cases h2 : (b && row.length ≥ count) = true
      · rw [if_pos h2, if_pos h2]
      · rw [if_neg h2] at h ⊢
        rw [if_neg h2]
        cases hr : (readGausCoefLine line : Res (List α)) with
        | ok v =>
          rw [hr] at h
          simp only [Res.ok_bind] at h ⊢
          exact ih _ _ _ h
        | _ => rfl

/-- A table whose last orbital is incomplete, or that has one orbital only, at the end of the text. -/
theorem coefLoop_cut (spin : Spin) (n : Nat) (o : Orbital α) (os : List (Orbital α))
    (h : ∀ x ∈ o :: os, IsLine x.header ∧ ∀ r ∈ x.rows, CoefLine r.1 r.2 ∧ r.2 ≠ [])
    (hos : ∀ x ∈ os, Contains x.header (lit " MO OE") ∧ Contains x.header spin.name)
    (hfull : ∀ x ∈ (o :: os).dropLast, x.coefs.length = n) (b : Bool) (count : Nat) (hb : b = true → count = n)
    (hcut : (b = false ∧ os = []) ∨ ∀ x ∈ (o :: os).getLast?, x.coefs.length < n) (acc : List (List α)) :
    Hangs (fun k => coefLoop spin.name k b count (openText (unlines (o.rows.map (·.1)) ++ tableText os)) acc) := by
  induction os generalizing o b count acc with
  | nil =>
    obtain ⟨h1, h3⟩ := h o (by simp)
    have hrow := rowLoop_cut b count o.rows (fun r hr => (h3 r hr).1) [] (by
      intro hb'
      rcases hcut with ⟨hb'', -⟩ | hc
      · rw [hb''] at hb'; cases hb'
      · rw [hb hb']
        have := hc o rfl
        simpa [Orbital.coefs] using this) []
    refine Hangs.succ rfl (g := fun k => rowLoop b count k (getline (openText (unlines (o.rows.map (·.1)))) []).2
        (getline (openText (unlines (o.rows.map (·.1)))) []).1 [] >>= fun x =>
          if !foundSubStrInStr x.2.1 spin.name then .ok (x.1, acc ++ [x.2.2]) else coefLoop spin.name k true x.2.2.length x.1 (acc ++ [x.2.2]))
      (fun fuel => ?_) hrow.bind
    rw [coefLoop]
    have e : tableText ([] : List (Orbital α)) = [] := rfl
    rw [e, List.append_nil]
  | cons o' os ih =>
    obtain ⟨h1, h3⟩ := h o (by simp)
    have h2 : o.coefs.length = n := hfull o (by simp)
    have hhead := fun x hx => (h x (List.mem_cons_of_mem _ hx)).1
    have hgl' := getline_orbs (os := o' :: os) (rest := []) (fun prev => getline_end prev) hhead
    simp only [List.append_nil] at hgl'
    have ho' := hos o' (by simp)
    have hrow := rowLoop_rows b count o.rows h3 [] hgl' (by intro hb'; rw [hb hb', ← h2]; simp [Orbital.coefs])
      (.inr (found_contains.2 ho'.1))
    have hN := ih o' (fun x hx => h x (List.mem_cons_of_mem _ hx)) (fun x hx => hos x (List.mem_cons_of_mem _ hx))
      (fun x hx => hfull x (by simp only [List.dropLast_cons₂]; exact List.mem_cons_of_mem _ hx)) true n (fun _ => rfl)
      (.inr (by
        rcases hcut with ⟨-, h⟩ | h
        · cases h
        · intro x hx; exact h x (by simpa [List.getLast?_cons_cons] using hx))) (acc ++ [o.coefs])
    refine Hangs.succ rfl (g := fun k => rowLoop b count k (getline (openText (unlines (o.rows.map (·.1)) ++ tableText (o' :: os))) []).2
        (getline (openText (unlines (o.rows.map (·.1)) ++ tableText (o' :: os))) []).1 [] >>= fun x =>
          if !foundSubStrInStr x.2.1 spin.name then .ok (x.1, acc ++ [x.2.2]) else coefLoop spin.name k true x.2.2.length x.1 (acc ++ [x.2.2]))
      (fun fuel => by rw [coefLoop]) ?_
    intro k
    have hk := hrow k []
    by_cases hd : rowLoop b count k (getline (openText (unlines (o.rows.map (·.1)) ++ tableText (o' :: os))) []).2
        (getline (openText (unlines (o.rows.map (·.1)) ++ tableText (o' :: os))) []).1 ([] : List α) = .diverge
    · simp only []
      rw [hd]; rfl
    · have hmono := rowLoop_mono b count k (o.rows.length + 1) _ _ _ hd
      rw [← Nat.add_assoc, hk] at hmono
      simp only []
      rw [← hmono]
      simp only [Res.ok_bind]
      rw [found_contains.2 ho'.2]
      simp only [Bool.not_true, Bool.false_eq_true, if_false, List.nil_append]
      have hc : (List.flatMap (fun x => x.2) o.rows).length = n := h2
      rw [hc]
      exact hN _

/-- A table at the end of the file whose last orbital is incomplete, or that has one orbital only. -/
theorem pun_hang (spin : Spin) (n : Nat) (o : Orbital α) (os : List (Orbital α))
    (hc : Contains o.header ((lit " 1 ") ++ spin.name ++ (lit " MO ")))
    (hb : spin = .beta → ¬ Contains o.header (lit " 1 Alpha MO "))
    (h : ∀ x ∈ o :: os, IsLine x.header ∧ ∀ r ∈ x.rows, CoefLine r.1 r.2 ∧ r.2 ≠ [])
    (hos : ∀ x ∈ os, Contains x.header (lit " MO OE") ∧ Contains x.header spin.name)
    (hfull : ∀ x ∈ (o :: os).dropLast, x.coefs.length = n)
    (hcut : os = [] ∨ ∀ x ∈ (o :: os).getLast?, x.coefs.length < n) (d : PunData α) :
    Hangs (runFrom punSections (tableText (o :: os)) d) := by
  have e : tableText (o :: os) = o.header ++ '\n' :: (unlines (o.rows.map (·.1)) ++ tableText os) := by
    have := table_text_cons o os []
    simpa using this
  rw [e]
  have hreader : (punSections (α := α)).readers.get (spinTag spin) = some (readCoef spin.name) := by cases spin <;> rfl
  refine hang_section _ (h o (by simp)).1 (pun_start hc hb) (by cases spin <;> simp [spinTag]) hreader ?_
  exact Hangs.bind (coefLoop_cut spin n o os h hos hfull false 0 (by simp) (hcut.imp (fun h => ⟨rfl, h⟩) id) [])

end
end Verif.Readers
