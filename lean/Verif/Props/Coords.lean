import Verif.Spec.Feed
import Verif.Props.ReadersTerm
import Verif.ConcreteLog
/-
Property C117: what happens to a coordinate table, whatever is in it.
-/
namespace Verif.Readers
open Strings Log

/-! ### the lines a loop of `getline` gets -/

theorem textLines_ne (t : Str) : textLines t ≠ [] := by
  cases t with
  | nil => simp [textLines]
  | cons c t =>
    unfold textLines
    split
    · simp
    · split <;> simp

theorem textLines_line {l : Str} (h : IsLine l) (rest : Str) : textLines (l ++ '\n' :: rest) = l :: textLines rest := by
  induction l with
  | nil => simp [textLines]
  | cons c l ih =>
    have hc : c ≠ '\n' := by intro e; apply h; rw [e]; simp
    have hl : IsLine l := fun hm => h (by simp [hm])
    rw [List.cons_append, textLines, if_neg hc, ih hl]

theorem textLines_last {l : Str} (h : IsLine l) : textLines l = [l] := by
  induction l with
  | nil => rfl
  | cons c l ih =>
    have hc : c ≠ '\n' := by intro e; apply h; rw [e]; simp
    have hl : IsLine l := fun hm => h (by simp [hm])
    rw [textLines, if_neg hc, ih hl]

theorem textLines_isLine (t : Str) : ∀ l ∈ textLines t, IsLine l := by
  induction t with
  | nil => simp [textLines, IsLine]
  | cons c t ih =>
    unfold textLines
    split
    · intro l hl
      rcases List.mem_cons.1 hl with rfl | hl
      · simp [IsLine]
      · exact ih l hl
    · rename_i hc
      cases hx : textLines t with
      | nil => exact absurd hx (textLines_ne t)
      | cons a ls =>
        intro l hl
        rw [hx] at ih
        rcases List.mem_cons.1 hl with rfl | hl
        · intro hm
          rcases List.mem_cons.1 hm with e | hm
          · exact hc e.symm
          · exact ih a (by simp) hm
        · exact ih l (by simp [hl])

theorem lineAt_isLine (t : Str) (n : Nat) : IsLine (lineAt t n) := by
  unfold lineAt
  have key : ∀ (ls : List Str) (n : Nat), ls ≠ [] → ls.getD n (ls.getLastD []) ∈ ls := by
    intro ls n hne
    by_cases hn : n < ls.length
    · rw [List.getD_eq_getElem?_getD, List.getElem?_eq_getElem hn]; simp
    · rw [List.getD_eq_getElem?_getD, List.getElem?_eq_none (by omega)]
      cases ls with
      | nil => exact absurd rfl hne
      | cons a ls =>
        rw [Option.getD_none, List.getLastD_eq_getLast?, List.getLast?_eq_some_getLast hne]
        exact List.getLast_mem hne
  exact textLines_isLine t _ (key _ _ (textLines_ne t))

/-- The stream and the line after line number `i` of `t` has been got. -/
def Feeding (t : Str) (i : Nat) (line : Str) (fid : Stream) : Prop :=
  line = lineAt t i ∧
  ((∃ pre rest, textLines t = pre ++ textLines rest ∧ pre.length = i + 1 ∧ fid = openText rest) ∨
    ((fid.eof = true ∨ fid.fail = true) ∧ (textLines t).length ≤ i + 1))

theorem lineAt_at {t : Str} {pre ls : List Str} {l : Str} (h : textLines t = pre ++ l :: ls) : lineAt t pre.length = l := by
  unfold lineAt; rw [h, List.getD_eq_getElem?_getD]; simp

theorem lineAt_over {t : Str} {i : Nat} (h : (textLines t).length ≤ i + 1) : lineAt t i = (textLines t).getLastD [] := by
  unfold lineAt
  by_cases hi : i < (textLines t).length
  · have e : i = (textLines t).length - 1 := by omega
    rw [List.getD_eq_getElem?_getD, List.getElem?_eq_getElem hi, List.getLastD_eq_getLast?, List.getLast?_eq_getElem?]
    rw [List.getElem?_eq_getElem (by omega)]
    simp [e]
  · rw [List.getD_eq_getElem?_getD, List.getElem?_eq_none (by omega)]; rfl

theorem getline_open (rest prev : Str) :
    ∃ l fid, getline (openText rest) prev = (l, fid) ∧ ∃ ls, textLines rest = l :: ls ∧
      ((∃ rest', ls = textLines rest' ∧ fid = openText rest') ∨ ((fid.eof = true ∨ fid.fail = true) ∧ ls = [])) := by
  rcases text_cases rest with rfl | ⟨hne, hl⟩ | ⟨l, r, hl, rfl⟩
  · exact ⟨_, _, getline_end prev, [], rfl, .inr ⟨.inl rfl, rfl⟩⟩
  · exact ⟨_, _, getline_last hl hne prev, [], textLines_last hl, .inr ⟨.inl rfl, rfl⟩⟩
  · exact ⟨_, _, getline_line hl r prev, _, textLines_line hl r, .inl ⟨r, rfl, rfl⟩⟩

theorem feeding_start (t prev : Str) : Feeding t 0 (getline (openText t) prev).1 (getline (openText t) prev).2 := by
  obtain ⟨l, fid, e, ls, e1, h⟩ := getline_open t prev
  rw [e]
  refine ⟨(lineAt_at (pre := []) e1).symm, ?_⟩
  rcases h with ⟨r, e2, e3⟩ | ⟨hb, e2⟩
  · exact .inl ⟨[l], r, by rw [e1, e2]; rfl, rfl, e3⟩
  · exact .inr ⟨hb, by rw [e1, e2]; simp⟩

theorem Feeding.next {t : Str} {i : Nat} {line : Str} {fid : Stream} (h : Feeding t i line fid) :
    Feeding t (i + 1) (getline fid line).1 (getline fid line).2 := by
  obtain ⟨h1, ⟨pre, rest, e, hp, rfl⟩ | ⟨hb, hn⟩⟩ := h
  · obtain ⟨l, fid, e0, ls, e1, h⟩ := getline_open rest line
    rw [e0]
    refine ⟨?_, ?_⟩
    · rw [← hp]; exact (lineAt_at (by rw [e, e1])).symm
    · rcases h with ⟨r, e2, e3⟩ | ⟨hb, e2⟩
      · exact .inl ⟨pre ++ [l], r, by rw [e, e1, e2]; simp, by simp [hp], e3⟩
      · exact .inr ⟨hb, by rw [e, e1, e2]; simp [hp]⟩
  · rw [getline_bad hb]
    refine ⟨?_, .inr ⟨.inr rfl, by omega⟩⟩
    show line = _
    rw [h1, lineAt_over hn, lineAt_over (by omega)]

theorem feeding_dead {fid : Stream} (hb : fid.eof = true ∨ fid.fail = true) : Feeding [] 0 (getline fid []).1 (getline fid []).2 := by
  rw [getline_bad hb]
  exact ⟨rfl, .inr ⟨.inr rfl, by simp [textLines]⟩⟩

/-! ### the loop over the rows -/

variable {α : Type} [Mul α] [Num α] [Zero α]

theorem coordLoop_good {l : Str} (h : GoodRow α l) (fid : Stream) (X Y Z : List α) :
    ∃ x y z, ∀ n, coordLoop (n + 1) fid l X Y Z = coordLoop n (getline fid l).2 (getline fid l).1 (X ++ [x]) (Y ++ [y]) (Z ++ [z]) := by
  obtain ⟨x, y, z, h⟩ := h
  exact ⟨x, y, z, fun n => coordLoop_pass (l, x, y, z) h fid X Y Z n⟩

theorem vecAt_some {β : Type} {l : List β} {k : Nat} {b : β} (h : l[k]? = some b) : vecAt l (k : Int) = .ok b := by
  obtain ⟨hk, rfl⟩ := List.getElem?_eq_some_iff.1 h
  exact vecAt_nat l k hk

theorem vecAt_none {β : Type} {l : List β} {k : Nat} (h : l[k]? = none) : vecAt l (k : Int) = .throw .outOfRange := by
  unfold vecAt
  rw [if_neg (by omega)]
  simp [h]

theorem coordLoop_bad {l : Str} {e : Exn} (h : BadRow α l e) (fid : Stream) (X Y Z : List α) (n : Nat) :
    coordLoop (n + 1) fid l X Y Z = .throw e := by
  obtain ⟨-, hc, ws, hw, k, k1, k2, hj, hk⟩ := h
  unfold coordLoop
  have hnc : foundSubStrInStr l coordEnd = false := not_found_contains.2 hc
  rw [hnc, hw.split]
  simp only [Bool.false_eq_true, if_false]
  rw [show (3 : Int) = ((3 : Nat) : Int) from rfl, show (4 : Int) = ((4 : Nat) : Int) from rfl, show (5 : Int) = ((5 : Nat) : Int) from rfl]
  have step : ∀ j, 3 ≤ j → j < k → ∃ w v, vecAt ws (j : Int) = .ok w ∧ (Num.stod w : Res α) = .ok v := by
    intro j h1 h2
    obtain ⟨w, v, e1, e2⟩ := hj j h1 h2
    exact ⟨w, v, vecAt_some e1, e2⟩
  have bad : vecAt ws (k : Int) = .throw e ∨ ∃ w, vecAt ws (k : Int) = .ok w ∧ (Num.stod w : Res α) = .throw e := by
    rcases hk with ⟨e1, rfl⟩ | ⟨w, e1, e2⟩
    · exact .inl (vecAt_none e1)
    · exact .inr ⟨w, vecAt_some e1, e2⟩
  have hk3 : k = 3 ∨ k = 4 ∨ k = 5 := by omega
  rcases hk3 with rfl | rfl | rfl
  · rcases bad with e1 | ⟨w, e1, e2⟩
    · rw [e1]; rfl
    · rw [e1]; simp only [Res.ok_bind]; rw [e2]; rfl
  · obtain ⟨w, v, e1, e2⟩ := step 3 (by omega) (by omega)
    rw [e1]; simp only [Res.ok_bind]; rw [e2]; simp only [Res.ok_bind]
    rcases bad with e1 | ⟨w, e1, e2⟩
    · rw [e1]; rfl
    · rw [e1]; simp only [Res.ok_bind]; rw [e2]; rfl
  · obtain ⟨w, v, e1, e2⟩ := step 3 (by omega) (by omega)
    rw [e1]; simp only [Res.ok_bind]; rw [e2]; simp only [Res.ok_bind]
    obtain ⟨w, v, e1, e2⟩ := step 4 (by omega) (by omega)
    rw [e1]; simp only [Res.ok_bind]; rw [e2]; simp only [Res.ok_bind]
    rcases bad with e1 | ⟨w, e1, e2⟩
    · rw [e1]; rfl
    · rw [e1]; simp only [Res.ok_bind]; rw [e2]; rfl

theorem coordLoop_feed_bad (t : Str) {k : Nat} {e : Exn} (hb : BadRow α (lineAt t k) e) (m : Nat) :
    ∀ i, i + m = k → (∀ j, i ≤ j → j < k → GoodRow α (lineAt t j)) → ∀ line fid, Feeding t i line fid →
      ∀ X Y Z : List α, ∀ n, coordLoop (n + (m + 1)) fid line X Y Z = .throw e := by
  induction m with
  | zero =>
    intro i hi _ line fid hf X Y Z n
    have : i = k := by omega
    subst this
    rw [hf.1]
    exact coordLoop_bad hb fid X Y Z n
  | succ m ih =>
    intro i hi hg line fid hf X Y Z n
    have hrow := hg i (Nat.le_refl _) (by omega)
    rw [← hf.1] at hrow
    obtain ⟨x, y, z, e⟩ := coordLoop_good hrow fid X Y Z
    rw [show n + (m + 1 + 1) = (n + (m + 1)) + 1 by omega, e]
    exact ih (i + 1) (by omega) (fun j h1 h2 => hg j (by omega) h2) _ _ hf.next _ _ _ n

theorem coordLoop_feed_hang (t : Str) (i : Nat) (hg : ∀ j, i ≤ j → GoodRow α (lineAt t j)) (line : Str) (fid : Stream) (hf : Feeding t i line fid)
    (X Y Z : List α) : Hangs (fun n => coordLoop n fid line X Y Z) := by
  intro n
  induction n generalizing i line fid X Y Z with
  | zero => rfl
  | succ n ih =>
    have hrow := hg i (Nat.le_refl _)
    rw [← hf.1] at hrow
    obtain ⟨x, y, z, e⟩ := coordLoop_good hrow fid X Y Z
    show coordLoop (n + 1) fid line X Y Z = _
    rw [e]
    exact ih (i + 1) (fun j h => hg j (by omega)) _ _ hf.next _ _ _

omit [Mul α] [Zero α] in
theorem coordReader_eq (n : Nat) (r : FR (LogData α)) {t : Str} (h : Feeding t 0 (getline r.fid []).1 (getline r.fid []).2) :
    ∃ line fid, Feeding t 2 line fid ∧ coordReader n r = (coordLoop n fid line [] [] [] >>= fun q =>
      .ok { r with fid := q.1, data := { r.data with xyz := [q.2.1, q.2.2.1, q.2.2.2] } }) :=
  ⟨_, _, h.next.next, rfl⟩

theorem coordReader_bad (t : Str) {k : Nat} {e : Exn} (hk : 2 ≤ k) (hb : BadRow α (lineAt t k) e)
    (hg : ∀ j, 2 ≤ j → j < k → GoodRow α (lineAt t j)) (r : FR (LogData α))
    (h : Feeding t 0 (getline r.fid []).1 (getline r.fid []).2) : Ends (fun n => coordReader n r) (.throw e) := by
  refine ⟨by simp, k - 2 + 1, fun n hn => ?_⟩
  obtain ⟨line, fid, hf, er⟩ := coordReader_eq n r h
  show coordReader n r = _
  rw [er]
  have := coordLoop_feed_bad t hb (k - 2) 2 (by omega) hg line fid hf [] [] [] (n - (k - 2 + 1))
  rw [show n - (k - 2 + 1) + (k - 2 + 1) = n by omega] at this
  rw [this]; rfl

theorem coordReader_hang (t : Str) (hg : ∀ j, 2 ≤ j → GoodRow α (lineAt t j)) (r : FR (LogData α))
    (h : Feeding t 0 (getline r.fid []).1 (getline r.fid []).2) : Hangs (fun n => coordReader n r) := by
  intro n
  obtain ⟨line, fid, hf, er⟩ := coordReader_eq n r h
  show coordReader n r = _
  have := coordLoop_feed_hang t 2 hg line fid hf [] [] [] n
  simp only [] at this
  rw [er, this]; rfl

/-! ### the claims -/

private theorem plain_boring {before : List Str} (hb : ∀ l ∈ before, Log.Plain l) :
    ∀ l ∈ before, IsLine l ∧ startSection (logSections (α := α)).headers l = [] :=
  fun l hl => ⟨(hb l hl).1, start_plain (hb l hl)⟩

theorem readLog_eq (fs : Str → Option Str) (name text : Str) (hfit : Fits name) (hname : PlainName (lit ".log") name)
    (h : fs name = some text) : (fun n => (readLog fs n name : Res (LogData α))) = runFrom logSections text LogData.empty := by
  funext n
  unfold readLog
  rw [((C70_accepted_partial (α := α) name hfit).1).2 hname]
  simp only [Res.ok_bind]
  exact read_eq _ _ _ _ h _ _

theorem header_ne {l : Str} (h : CoordHeader l) : l ≠ [] := by
  rintro rfl
  obtain ⟨-, ⟨x, y, e⟩ | ⟨x, y, e⟩, -⟩ := h <;>
  · have := congrArg List.length e
    simp at this

theorem coordFile_ends {text t : Str} (h : CoordFile text t) {e : Exn}
    (hr : ∀ r : FR (LogData α), Feeding t 0 (getline r.fid []).1 (getline r.fid []).2 → Ends (fun n => coordReader n r) (.throw e))
    (d : LogData α) : Ends (runFrom logSections text d) (.throw e) := by
  obtain ⟨before, header, hb, hh, rfl | ⟨rfl, rfl⟩⟩ := h
  · exact run_boring_lines _ (plain_boring hb) (run_section_throw _ hh.1 (start_coords hh) (by decide) rfl (hr _ (feeding_start t [])))
  · refine run_boring_lines _ (plain_boring hb) ?_
    exact Ends.succ (fun fuel => runFrom_section_last _ hh.1 (header_ne hh) (start_coords hh) (by decide) rfl d fuel)
      (Ends.bind_fail (hr _ (feeding_dead (.inl rfl))))

theorem coordFile_hangs {text t : Str} (h : CoordFile text t)
    (hr : ∀ r : FR (LogData α), Feeding t 0 (getline r.fid []).1 (getline r.fid []).2 → Hangs (fun n => coordReader n r))
    (d : LogData α) : Hangs (runFrom logSections text d) := by
  obtain ⟨before, header, hb, hh, rfl | ⟨rfl, rfl⟩⟩ := h
  · exact hang_boring_lines _ (plain_boring hb) (hang_section _ hh.1 (start_coords hh) (by decide) rfl (hr _ (feeding_start t [])))
  · refine hang_boring_lines _ (plain_boring hb) ?_
    refine Hangs.succ rfl (fun fuel => runFrom_section_last _ hh.1 (header_ne hh) (start_coords hh) (by decide) rfl d fuel) ?_
    intro n
    have := hr ⟨⟨[], true, false⟩, some header, d⟩ (feeding_dead (.inl rfl)) n
    simp only [] at this ⊢
    rw [this]; rfl

/-- C117 (bad rows): let lines 2, 3, ... below the announcement (counted from 0) be rows up to a line that is neither a row nor the
ruler. Then reading throws what that line calls for: `out_of_range` if the first missing word decides, else the exception
of `stod`. This includes a file that ends within the table after a complete line: the line after the last one is empty. -/
theorem C117_bad_row (fs : Str → Option Str) (name text t : Str) (hfit : Fits name) (hname : PlainName (lit ".log") name)
    (h : fs name = some text) (ht : CoordFile text t) (k : Nat) (hk : 2 ≤ k) (hg : ∀ j, 2 ≤ j → j < k → GoodRow α (lineAt t j))
    (e : Exn) (hb : BadRow α (lineAt t k) e) : Ends (fun n => (readLog fs n name : Res (LogData α))) (.throw e) := by
  rw [readLog_eq fs name text hfit hname h]
  exact coordFile_ends ht (fun r hr => coordReader_bad t hk hb hg r hr) _

/-- C117 (no end): if every line from number 2 on is a row - the text ends within the table, after a row that lacks its line end
- reading never ends. -/
theorem C117_endless (fs : Str → Option Str) (name text t : Str) (hfit : Fits name) (hname : PlainName (lit ".log") name)
    (h : fs name = some text) (ht : CoordFile text t) (hg : ∀ j, 2 ≤ j → GoodRow α (lineAt t j)) :
    Hangs (fun n => (readLog fs n name : Res (LogData α))) := by
  rw [readLog_eq fs name text hfit hname h]
  exact coordFile_hangs ht (fun r hr => coordReader_hang t hg r hr) _

omit [Zero α] in
theorem row_cases (l : Str) (hl : IsLine l) : Ruler l ∨ GoodRow α l ∨ ∃ e, BadRow α l e := by
  by_cases hr : Contains l (List.replicate 69 '-')
  · exact .inl ⟨hl, hr⟩
  right
  obtain ⟨ws, hw⟩ : ∃ ws, Strings.Layout l ws := ⟨_, layout_splitSt l⟩
  have look : ∀ k : Nat, (∃ w v, ws[k]? = some w ∧ (Num.stod w : Res α) = .ok v) ∨
      ∃ e, (ws[k]? = none ∧ e = Exn.outOfRange) ∨ ∃ w, ws[k]? = some w ∧ (Num.stod w : Res α) = .throw e := by
    intro k
    cases hk : ws[k]? with
    | none => exact .inr ⟨_, .inl ⟨rfl, rfl⟩⟩
    | some w =>
      rcases Num.stod_cases (α := α) w with ⟨v, hv⟩ | ⟨e, he⟩
      · exact .inl ⟨w, v, rfl, hv⟩
      · exact .inr ⟨e, .inr ⟨w, rfl, he⟩⟩
  rcases look 3 with ⟨w3, v3, a3, b3⟩ | ⟨e, he⟩
  · rcases look 4 with ⟨w4, v4, a4, b4⟩ | ⟨e, he⟩
    · rcases look 5 with ⟨w5, v5, a5, b5⟩ | ⟨e, he⟩
      · left
        match ws, hw, a3, a4, a5 with
        | a :: b :: c :: x :: y :: z :: more, hw, a3, a4, a5 =>
          simp only [List.getElem?_cons_succ, List.getElem?_cons_zero, Option.some.injEq] at a3 a4 a5
          exact ⟨v3, v4, v5, hl, hr, a, b, c, x, y, z, more, hw, by rw [a3]; exact b3, by rw [a4]; exact b4, by rw [a5]; exact b5⟩
      · refine .inr ⟨e, hl, hr, ws, hw, 5, by omega, by omega, fun j h1 h2 => ?_, he⟩
        have : j = 3 ∨ j = 4 := by omega
        rcases this with rfl | rfl
        · exact ⟨_, _, a3, b3⟩
        · exact ⟨_, _, a4, b4⟩
    · refine .inr ⟨e, hl, hr, ws, hw, 4, by omega, by omega, fun j h1 h2 => ?_, he⟩
      have : j = 3 := by omega
      subst this
      exact ⟨_, _, a3, b3⟩
  · exact .inr ⟨e, hl, hr, ws, hw, 3, by omega, by omega, fun j h1 h2 => by omega, he⟩

omit [Zero α] in
/-- C117 (nothing else can be): whatever follows the announcement, the rows end at a ruler, or at a line as in `C117_bad_row`, or never. -/
theorem C117_cases (t : Str) :
    (∃ k, 2 ≤ k ∧ (∀ j, 2 ≤ j → j < k → GoodRow α (lineAt t j)) ∧ Ruler (lineAt t k)) ∨
    (∃ k e, 2 ≤ k ∧ (∀ j, 2 ≤ j → j < k → GoodRow α (lineAt t j)) ∧ BadRow α (lineAt t k) e) ∨
    (∀ j, 2 ≤ j → GoodRow α (lineAt t j)) := by
  by_cases h : ∀ j, 2 ≤ j → GoodRow α (lineAt t j)
  · exact .inr (.inr h)
  · have key : ∀ n, (∀ j, 2 ≤ j → j < n → GoodRow α (lineAt t j)) ∨
        ∃ k, 2 ≤ k ∧ (∀ j, 2 ≤ j → j < k → GoodRow α (lineAt t j)) ∧ ¬ GoodRow α (lineAt t k) := by
      intro n
      induction n with
      | zero => exact .inl (fun j _ h => by omega)
      | succ n ih =>
        rcases ih with ih | ih
        · by_cases hn : 2 ≤ n ∧ ¬ GoodRow α (lineAt t n)
          · exact .inr ⟨n, hn.1, ih, hn.2⟩
          · refine .inl fun j h1 h2 => ?_
            by_cases e : j < n
            · exact ih j h1 e
            · have : j = n := by omega
              subst this
              exact Classical.byContradiction fun hc => hn ⟨h1, hc⟩
        · exact .inr ih
    have : ∃ k, 2 ≤ k ∧ (∀ j, 2 ≤ j → j < k → GoodRow α (lineAt t j)) ∧ ¬ GoodRow α (lineAt t k) := by
      obtain ⟨j, hj⟩ := Classical.not_forall.1 h
      obtain ⟨h2, hj⟩ := Classical.not_imp.1 hj
      rcases key (j + 1) with g | g
      · exact absurd (g j h2 (by omega)) hj
      · exact g
    obtain ⟨k, hk, hg, hn⟩ := this
    rcases row_cases (α := α) (lineAt t k) (lineAt_isLine t k) with hr | hr | ⟨e, he⟩
    · exact .inl ⟨k, hk, hg, hr⟩
    · exact absurd hr hn
    · exact .inr (.inl ⟨k, e, hk, hg, he⟩)

/-! ### a table that breaks off -/

private def top : Str := (lit "Center     Atomic      Atomic")
private def cut : Str := (lit " Number\n ------\n 1 6 0 10 20 30\n 2 6 0 40 x 60\n")
private def cut2 : Str := (lit " Number\n ------\n 1 6 0 10 20 30\n")
private def cut3 : Str := (lit " Number\n ------\n 1 6 0 10 20 30\n 2 6 0 40 50 60")

private theorem top_header : CoordHeader top :=
  ⟨isLine_of (by decide), .inl (contains_of (by decide)), not_contains_of (by decide)⟩

private theorem row1 : GoodRow Int (lit " 1 6 0 10 20 30") :=
  ⟨10, 20, 30, isLine_of (by decide), not_contains_of (by decide), _, _, _, _, _, _, _, layout_splitSt _, by decide, by decide, by decide⟩

private theorem row2 : GoodRow Int (lit " 2 6 0 40 50 60") :=
  ⟨40, 50, 60, isLine_of (by decide), not_contains_of (by decide), _, _, _, _, _, _, _, layout_splitSt _, by decide, by decide, by decide⟩

private theorem name_log : PlainName (lit ".log") (lit "a.log") := ⟨[], (lit "a"), [], rfl, .inl rfl, by decide, by decide, by simp⟩
private theorem fits_name : Fits (lit "a.log") := by unfold Fits; decide

private theorem file (t : Str) : CoordFile (top ++ '\n' :: t) t := ⟨[], top, by simp, top_header, .inl rfl⟩

/-- A word that is no number. -/
example : Ends (fun n => (readLog (holding (lit "a.log") (top ++ '\n' :: cut)) n (lit "a.log") : Res (LogData Int))) (.throw .invalidArgument) :=
  C117_bad_row (holding (lit "a.log") (top ++ '\n' :: cut)) _ _ cut fits_name name_log rfl (file cut) 3 (by omega)
    (fun j h1 h2 => by have : j = 2 := by omega
                       subst this; exact row1)
    .invalidArgument ⟨isLine_of (by decide), not_contains_of (by decide), _, layout_splitSt _, 4, by omega, by omega,
      fun j h1 h2 => by have : j = 3 := by omega
                        subst this; exact ⟨(lit "40"), 40, by decide, by decide⟩, .inr ⟨(lit "x"), by decide, by decide⟩⟩

/-- The text ends after a complete row. -/
example : Ends (fun n => (readLog (holding (lit "a.log") (top ++ '\n' :: cut2)) n (lit "a.log") : Res (LogData Int))) (.throw .outOfRange) :=
  C117_bad_row (holding (lit "a.log") (top ++ '\n' :: cut2)) _ _ cut2 fits_name name_log rfl (file cut2) 3 (by omega)
    (fun j h1 h2 => by have : j = 2 := by omega
                       subst this; exact row1)
    _ ⟨isLine_of (by decide), not_contains_of (by decide), _, layout_splitSt _, 3, by omega, by omega,
      fun j h1 h2 => by omega, .inl ⟨by decide, rfl⟩⟩

/-- The text ends within a row. -/
example : Hangs (fun n => (readLog (holding (lit "a.log") (top ++ '\n' :: cut3)) n (lit "a.log") : Res (LogData Int))) :=
  C117_endless _ _ _ cut3 fits_name name_log rfl (file cut3) (fun j h => by
    by_cases e : j = 2
    · subst e; exact row1
    · have : lineAt cut3 j = (lit " 2 6 0 40 50 60") := by
        rw [lineAt_over (show (textLines cut3).length ≤ j + 1 by
          have : (textLines cut3).length = 4 := by decide
          omega)]
        decide
      rw [this]; exact row2)

end Verif.Readers
