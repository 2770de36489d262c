import Verif.Props.ReadersTerm
import Verif.ConcreteLog
/-
Properties C75-C77: what a pun file says is what the reader returns.
-/
namespace Verif.Readers
open Strings Log Pun Mat

variable {α : Type} [Mul α] [Num α]

/-! ### C75 -/

/-- C75 (fields): a line of fields of 15 characters, followed by less than 15 characters, yields exactly the numbers of the
fields. -/
theorem C75_fields (fields : List (Str × α)) (short : Str) (hs : short.length < 15) (hf : ∀ f ∈ fields, Field f.1 f.2)
    (hfit : Fits (fields.flatMap (·.1) ++ short)) :
    readGausCoefLine (fields.flatMap (·.1) ++ short) = .ok (fields.map (·.2)) :=
  readGausCoefLine_fields fields short hs hf hfit

/-- The number in field number `k` (from 0) of a line: characters 0 to 10 and 12 to 14 of the field, without blanks, are its mantissa
and its exponent. -/
def fieldValue (line : Str) (k : Nat) : Res α := do
  let a ← Num.stod (trimmed ((line.drop (15 * k)).take 11))
  let b ← Num.stod (trimmed ((line.drop (15 * k + 12)).take 3))
  .ok (a * Num.pow10 b)

private theorem gausLoop_any (line : Str) (hfit : Fits line) (m : Nat) : ∀ (k : Nat) (acc : List α) (fuel : Nat),
    line.length / 15 = k + m → m < fuel →
    gausLoop line fuel (15 * k) acc = (do let vs ← (List.range' k m).mapM (fieldValue line); .ok (acc ++ vs)) := by
  unfold Fits at hfit
  induction m with
  | zero =>
    intro k acc fuel hk hf
    obtain ⟨fuel, rfl⟩ : ∃ j, fuel = j + 1 := ⟨fuel - 1, by omega⟩
    rw [gausLoop, if_neg]
    · simp
    · unfold toSize; omega
  | succ m ih =>
    intro k acc fuel hk hf
    obtain ⟨fuel, rfl⟩ : ∃ j, fuel = j + 1 := ⟨fuel - 1, by omega⟩
    have hsize : toSize ((line.length : Int) - ((15 * k : Nat) : Int)) ≥ 15 := by
      have : (line.length : Int) - ((15 * k : Nat) : Int) = ((line.length - 15 * k : Nat) : Int) := by omega
      rw [this]; unfold toSize
      rw [Int.emod_eq_of_lt (by omega) (by omega)]
      omega
    rw [gausLoop, if_pos hsize, substr_ok (by omega), List.range'_succ, List.mapM_cons]
    rw [show (fieldValue line k : Res α) = (do
      let a ← Num.stod (trimmed ((line.drop (15 * k)).take 11))
      let b ← Num.stod (trimmed ((line.drop (15 * k + 12)).take 3))
      .ok (a * Num.pow10 b)) from rfl]
    simp only [Res.ok_bind, bind_assoc, Nat.zero_add]
    cases h1 : (Num.stod (trimmed ((line.drop (15 * k)).take 11)) : Res α) with
    | ok a =>
      simp only [Res.ok_bind]
      rw [substr_ok (by omega), show 12 + 15 * k = 15 * k + 12 by omega]
      simp only [Res.ok_bind]
      cases h2 : (Num.stod (trimmed ((line.drop (15 * k + 12)).take 3)) : Res α) with
      | ok b =>
        simp only [Res.ok_bind]
        rw [show 15 * k + 15 = 15 * (k + 1) by omega, ih (k + 1) _ fuel (by omega) (by omega)]
        cases (List.range' (k + 1) m).mapM (fieldValue (α := α) line) with
        | ok vs => simp [pure]
        | _ => rfl
      | _ => rfl
    | _ => rfl

/-- C75 (every line): whatever the line, it is taken for as many fields as fit in, and the result is the list of their numbers, or the
first error `stod` reports for them; no character outside of the fields is ever used. -/
theorem C75_every_line (line : Str) (hfit : Fits line) :
    readGausCoefLine line = (List.range (line.length / 15)).mapM (fieldValue (α := α) line) := by
  unfold readGausCoefLine
  have := gausLoop_any (α := α) line hfit (line.length / 15) 0 [] (line.length + 1) (by omega) (by omega)
  rw [Nat.mul_zero] at this
  rw [this, List.range_eq_range']
  cases (List.range' 0 (line.length / 15)).mapM (fieldValue (α := α) line) <;> rfl

/-! ### C76 -/

variable [Zero α]

/-- Constructing a `PunReader` for the well-formed pun file `name` and calling `read` succeeds. -/
theorem pun_reads (fs : Str → Option Str) (name : Str) (hfit : Fits name) (hname : PlainName (lit ".pun") name)
    (ps : List (Pun.Piece α)) (e : Ending α) (hf : PunFile ps e) (h : fs name = some (punText ps e)) :
    ∃ d, PunEffect ps e [] d ∧ Ends (fun n => (readPun fs n name : Res (PunData α))) (.ok d) := by
  obtain ⟨d', h1, he⟩ := run_pun ps e hf []
  refine ⟨d', h1, ?_⟩
  have e : (fun n => (readPun fs n name : Res (PunData α))) = runFrom punSections (punText ps e) [] := by
    funext n
    unfold readPun
    rw [((C70_accepted_partial (α := α) name hfit).2.2.1).2 hname]
    simp only [Res.ok_bind]
    exact read_eq _ _ _ _ h _ _
  rw [e]; exact he

private theorem last_table (spin : Spin) (ps : List (Pun.Piece α)) (e : Ending α) (hf : PunFile ps e) (orbs : List (Orbital α))
    (h : lastTable spin ps e = some orbs) : ∃ n, CoefTable spin n orbs := by
  induction ps with
  | nil =>
    cases e with
    | rest t => cases h
    | table s n os =>
      simp only [lastTable] at h
      split at h
      · rename_i hs
        subst hs
        simp only [Option.some.injEq] at h
        subst h
        exact ⟨n, hf.2.1⟩
      · cases h
  | cons p ps ih =>
    have hrest : PunFile ps e := ⟨fun q hq => hf.1 q (by simp [hq]), hf.2⟩
    cases p with
    | plain l => exact ih hrest h
    | coefs s n os next =>
      simp only [lastTable] at h
      split at h
      · rename_i hs
        subst hs
        simp only [Option.some.injEq] at h
        cases hl : lastTable s ps e with
        | none =>
          rw [hl] at h
          simp only [Option.getD_none] at h
          subst h
          exact ⟨n, (hf.1 (.coefs s n os next) (by simp)).1⟩
        | some os' =>
          rw [hl] at h
          simp only [Option.getD_some] at h
          subst h
          exact ih hrest hl
      · exact ih hrest h

/-- C76 (partial): after reading a well-formed pun file, `getCoefsMatrix` is the matrix whose row number i holds the coefficients of the
i-th orbital of the last table of that spin, and throws `invalid_argument` if there is no such table; `restrictedShell` tells whether
there are tables of one spin only. Missing: tables that hold one orbital only are read if the next line contains ` MO OE`, but never at
the end of the file, see `C76_refuted`. -/
theorem C76_coefs_partial (fs : Str → Option Str) (name : Str) (hfit : Fits name) (hname : PlainName (lit ".pun") name)
    (ps : List (Pun.Piece α)) (e : Ending α) (hf : PunFile ps e) (h : fs name = some (punText ps e)) :
    ∃ d, Ends (fun n => (readPun fs n name : Res (PunData α))) (.ok d) ∧ (∀ spin : Spin,
      (∀ orbs, lastTable spin ps e = some orbs → ∃ m, d.getCoefsMatrix spin.name = .ok m ∧ m.rows = orbs.length ∧
        (∀ o ∈ orbs, m.cols = o.coefs.length) ∧
        ∀ (i : Nat) (hi : i < orbs.length) (j : Nat) (hj : j < orbs[i].coefs.length),
          m.getElem2 (i + 1) (j + 1) = .ok (orbs[i].coefs[j])) ∧
      (lastTable spin ps e = none → d.getCoefsMatrix spin.name = .throw .invalidArgument)) ∧
      (d.restrictedShell = true ↔ ((lastTable .alpha ps e).isSome ≠ (lastTable .beta ps e).isSome)) := by
  obtain ⟨d, ⟨he, hk⟩, hr⟩ := pun_reads fs name hfit hname ps e hf h
  refine ⟨d, hr, fun spin => ⟨fun orbs ho => ?_, fun ho => ?_⟩, ?_⟩
  · have h1 := he spin
    rw [ho] at h1
    obtain ⟨m, h1, h2⟩ := h1
    obtain ⟨n, ht⟩ := last_table spin ps e hf orbs ho
    obtain ⟨h0, -, -, -, -, h5⟩ := ht
    cases orbs with
    | nil => exact absurd rfl h0
    | cons o os =>
      obtain ⟨m', h6, -, h7, h8, -, h9⟩ := (C04_ofVecVec ((o :: os).map Orbital.coefs)).2.2 o.coefs rfl (by
        intro v hv
        obtain ⟨x, hx, rfl⟩ := List.mem_map.1 hv
        rw [(h5 x hx).2.1, (h5 o (by simp)).2.1])
      rw [h2] at h6
      simp only [Res.ok.injEq] at h6
      subst h6
      refine ⟨m, by simp only [PunData.getCoefsMatrix, h1], by simpa using h7, ?_, ?_⟩
      · intro x hx
        rw [h8, (h5 x hx).2.1, (h5 o (by simp)).2.1]
      · intro i hi j hj
        have := h9 i (by simpa using hi) j (by rw [List.getElem_map]; exact hj)
        rw [this]
        simp only [List.getElem_map]
  · have h1 := he spin
    rw [ho] at h1
    simp only [Map.get_nil] at h1
    simp only [PunData.getCoefsMatrix, h1]
  · have := hk false false rfl
    unfold PunData.restrictedShell
    have hl : d.length = (punKeys d).length := by simp [punKeys]
    rw [decide_eq_true_eq, hl, this]
    cases (lastTable .alpha ps e).isSome <;> cases (lastTable .beta ps e).isSome <;> simp [spinKeys]

/-- C76 is false for a file with a single orbital: it is never read to its end. -/
theorem C76_refuted (before : List Str) (hb : ∀ l ∈ before, Pun.Plain l) (spin : Spin) (n : Nat) (o : Orbital α)
    (ht : CoefTable spin n [o]) (fs : Str → Option Str) (name : Str) (hfit : Fits name) (hname : PlainName (lit ".pun") name)
    (h : fs name = some (unlines before ++ tableText [o])) : Hangs (fun k => (readPun fs k name : Res (PunData α))) := by
  obtain ⟨-, -, h3, h4, h5, h6⟩ := ht
  refine C69_refuted_pun before hb spin n o [] (h3 o rfl) (fun hs => h4 hs o rfl) ?_ (by simp) (by simp) (.inl rfl) fs name hfit hname h
  intro x hx
  obtain ⟨g1, -, g3⟩ := h6 x hx
  exact ⟨g1, g3⟩

/-! ### C77 -/

private theorem plains_text (ls : List Str) : (ls.map (Pun.Piece.plain (α := α))).flatMap Pun.Piece.text = unlines ls := by
  induction ls with
  | nil => rfl
  | cons l ls ih => simp [Pun.Piece.text, ih, unlines_cons]

private theorem last_plains (spin : Spin) (ls : List Str) (ps : List (Pun.Piece α)) (e : Ending α) :
    lastTable spin (ls.map Pun.Piece.plain ++ ps) e = lastTable spin ps e := by
  induction ls with
  | nil => rfl
  | cons l ls ih => exact ih

/-- C77 (partial): the coefficients of both spins are available if another line stands between the two tables. -/
theorem C77_separated_partial (before between : List Str) (sep : Str) (n k : Nat) (A B : List (Orbital α))
    (hb : ∀ l ∈ before, Pun.Plain l) (hA : CoefTable .alpha n A) (hsep : IsLine sep) (hf : Follows .alpha A.length sep)
    (hbt : ∀ l ∈ between, Pun.Plain l) (hB : CoefTable .beta k B) (h2 : 2 ≤ B.length)
    (fs : Str → Option Str) (name : Str) (hfit : Fits name) (hname : PlainName (lit ".pun") name)
    (h : fs name = some (unlines before ++ (tableText A ++ (unlines (sep :: between) ++ tableText B)))) :
    ∃ d, Ends (fun n => (readPun fs n name : Res (PunData α))) (.ok d) ∧
      (∃ m, d.getCoefsMatrix (lit "Alpha") = .ok m ∧ m.rows = A.length ∧ m.cols = n) ∧
      (∃ m, d.getCoefsMatrix (lit "Beta") = .ok m ∧ m.rows = B.length ∧ m.cols = k) ∧ d.restrictedShell = false := by
  have hfile : PunFile (before.map Pun.Piece.plain ++ .coefs .alpha n A sep :: between.map Pun.Piece.plain) (.table .beta k B) := by
    refine ⟨fun p hp => ?_, hB, h2⟩
    simp only [List.mem_append, List.mem_cons, List.mem_map] at hp
    rcases hp with ⟨l, hl, rfl⟩ | rfl | ⟨l, hl, rfl⟩
    · exact hb l hl
    · exact ⟨hA, hsep, hf⟩
    · exact hbt l hl
  have htext : punText (before.map Pun.Piece.plain ++ .coefs .alpha n A sep :: between.map Pun.Piece.plain) (.table .beta k B) =
      unlines before ++ (tableText A ++ (unlines (sep :: between) ++ tableText B)) := by
    unfold punText
    rw [List.flatMap_append, plains_text, List.flatMap_cons, plains_text]
    simp [Pun.Piece.text, Ending.text, unlines_cons]
  have lA : lastTable .alpha (before.map Pun.Piece.plain ++ .coefs .alpha n A sep :: between.map Pun.Piece.plain) (.table .beta k B) = some A := by
    rw [last_plains]
    simp only [lastTable, if_true]
    have := last_plains .alpha between [] (.table .beta k B)
    rw [List.append_nil] at this
    rw [this]
    simp [lastTable]
  have lB : lastTable .beta (before.map Pun.Piece.plain ++ .coefs .alpha n A sep :: between.map Pun.Piece.plain) (.table .beta k B) = some B := by
    rw [last_plains]
    have := last_plains .beta between [] (.table .beta k B)
    rw [List.append_nil] at this
    simp only [lastTable]
    rw [if_neg (by simp), this]
    simp [lastTable]
  obtain ⟨d, hr, hd, hs⟩ := C76_coefs_partial fs name hfit hname _ _ hfile (h.trans (congrArg some htext.symm))
  refine ⟨d, hr, ?_, ?_, ?_⟩
  · obtain ⟨m, m1, m2, m3, -⟩ := (hd .alpha).1 A lA
    obtain ⟨g0, -, -, -, -, g5⟩ := hA
    cases A with
    | nil => exact absurd rfl g0
    | cons o os => exact ⟨m, m1, m2, by rw [m3 o (by simp), (g5 o (by simp)).2.1]⟩
  · obtain ⟨m, m1, m2, m3, -⟩ := (hd .beta).1 B lB
    obtain ⟨g0, -, -, -, -, g5⟩ := hB
    cases B with
    | nil => exact absurd rfl g0
    | cons o os => exact ⟨m, m1, m2, by rw [m3 o (by simp), (g5 o (by simp)).2.1]⟩
  · cases hrs : d.restrictedShell with
    | false => rfl
    | true =>
      have := hs.1 hrs
      rw [lA, lB] at this
      exact absurd rfl this

/-- C77 is false when the Beta table follows the Alpha table immediately, as in Gaussian's output: its first line is taken for the end
of the Alpha table, so the Beta coefficients are not found and the file looks like one of a closed shell. (The lines of the Beta
table below its first one contain no ` 1 Alpha MO ` or ` 1 Beta MO `.) -/
theorem C77_refuted (before : List Str) (n k : Nat) (A : List (Orbital α)) (o : Orbital α) (os : List (Orbital α))
    (hb : ∀ l ∈ before, Pun.Plain l) (hA : CoefTable .alpha n A) (hB : CoefTable .beta k (o :: os))
    (hf : Follows .alpha A.length o.header)
    (hplain : ∀ l ∈ o.rows.map (·.1) ++ os.flatMap Orbital.lines, Pun.Plain l)
    (fs : Str → Option Str) (name : Str) (hfit : Fits name) (hname : PlainName (lit ".pun") name)
    (h : fs name = some (unlines before ++ (tableText A ++ tableText (o :: os)))) :
    ∃ d, Ends (fun n => (readPun fs n name : Res (PunData α))) (.ok d) ∧
      d.getCoefsMatrix (lit "Beta") = .throw .invalidArgument ∧ d.restrictedShell = true := by
  have hfile : PunFile (before.map Pun.Piece.plain ++ .coefs .alpha n A o.header ::
      (o.rows.map (·.1) ++ os.flatMap Orbital.lines).map Pun.Piece.plain) (.rest []) := by
    refine ⟨fun p hp => ?_, .inl rfl⟩
    rw [List.mem_append, List.mem_cons] at hp
    rcases hp with hp | rfl | hp
    · obtain ⟨l, hl, rfl⟩ := List.mem_map.1 hp
      exact hb l hl
    · exact ⟨hA, (hB.2.2.2.2.2 o (by simp)).1, hf⟩
    · obtain ⟨l, hl, rfl⟩ := List.mem_map.1 hp
      exact hplain l hl
  have htext : punText (before.map Pun.Piece.plain ++ .coefs .alpha n A o.header ::
      (o.rows.map (·.1) ++ os.flatMap Orbital.lines).map Pun.Piece.plain) (.rest []) =
      unlines before ++ (tableText A ++ tableText (o :: os)) := by
    unfold punText
    rw [List.flatMap_append, plains_text, List.flatMap_cons, plains_text]
    simp [Pun.Piece.text, Ending.text, tableText, Orbital.lines, unlines_cons, unlines_append]
  have lA : lastTable .alpha (before.map Pun.Piece.plain ++ .coefs .alpha n A o.header ::
      (o.rows.map (·.1) ++ os.flatMap Orbital.lines).map Pun.Piece.plain) (.rest []) = some A := by
    rw [last_plains]
    simp only [lastTable, if_true]
    have := last_plains .alpha (o.rows.map (·.1) ++ os.flatMap Orbital.lines) [] (.rest [] : Ending α)
    rw [List.append_nil] at this
    rw [this]
    rfl
  have lB : lastTable .beta (before.map Pun.Piece.plain ++ .coefs .alpha n A o.header ::
      (o.rows.map (·.1) ++ os.flatMap Orbital.lines).map Pun.Piece.plain) (.rest []) = none := by
    rw [last_plains]
    have := last_plains .beta (o.rows.map (·.1) ++ os.flatMap Orbital.lines) [] (.rest [] : Ending α)
    rw [List.append_nil] at this
    simp only [lastTable]
    rw [if_neg (by simp), this]
    rfl
  obtain ⟨d, hr, hd, hs⟩ := C76_coefs_partial fs name hfit hname _ _ hfile (h.trans (congrArg some htext.symm))
  exact ⟨d, hr, (hd .beta).2 lB, hs.2 (by rw [lA, lB]; simp)⟩

/-! ### examples -/

private theorem plain_pun : PlainName (lit ".pun") (lit "a.pun") := ⟨[], (lit "a"), [], rfl, .inl rfl, by decide, by decide, by simp⟩
private theorem fits_pun : Fits (lit "a.pun") := by unfold Fits; decide

section
variable {α : Type} [Mul α] [Num α] [DecidableEq α]

/-- Checks a field. -/
def fieldOk (t : Str) (v : α) : Bool :=
  t.length = 15 && match splitSt (t.take 11), splitSt (t.drop 12) with
    | [m], [x] => match (Num.stod m : Res α), (Num.stod x : Res α) with
      | .ok y, .ok z => decide (v = y * Num.pow10 z)
      | _, _ => false
    | _, _ => false

theorem field_of {t : Str} {v : α} (h : fieldOk t v = true) : Field t v := by
  unfold fieldOk at h
  simp only [Bool.and_eq_true, decide_eq_true_eq] at h
  obtain ⟨hl, h⟩ := h
  split at h
  · rename_i m x hm hx
    split at h
    · rename_i y z hy hz
      have h11 : t.drop 11 = t[11] :: t.drop 12 := List.drop_eq_getElem_cons (by omega)
      refine ⟨t.take 11, t[11], t.drop 12, m, x, y, z, ?_, by simp; omega, by simp; omega, layout_of hm, layout_of hx, hy, hz, of_decide_eq_true h⟩
      rw [← h11]; exact (List.take_append_drop 11 t).symm
    · cases h
  · cases h

theorem coefLine_of {l : Str} (fields : List (Str × α)) {vals : List α} (h1 : l.contains '\n' = false) (h2 : l.length < 2 ^ 63)
    (h3 : foundSubStrInStr l (lit " MO OE") = false) (h4 : l = fields.flatMap (·.1)) (h5 : fields.all (fun f => fieldOk f.1 f.2) = true)
    (h6 : vals = fields.map (·.2)) : CoefLine l vals :=
  ⟨isLine_of h1, h2, not_contains_of h3, fields, [], by simpa using h4, by decide, fun f hf => field_of (List.all_eq_true.1 h5 f hf), h6⟩

end

/-- Orbitals with six coefficients, in two lines. -/
def sampleOrb (header : Str) : Orbital Int :=
  ⟨header, [((lit " 0.99000000D+00 2.00000000D+01-3.00000000D+00 4.00000000D+00 5.00000000D+00"), [0, 20, -3, 4, 5]),
    ((lit " 6.00000000D+00"), [6])]⟩

def sampleA : List (Orbital Int) := [sampleOrb (lit "    1 Alpha MO OE=-0.9D+01"), sampleOrb (lit "    2 Alpha MO OE= 0.1D+00")]
def sampleB : List (Orbital Int) := [sampleOrb (lit "    1 Beta MO OE=-0.8D+01"), sampleOrb (lit "    2 Beta MO OE= 0.2D+00")]

theorem sampleOrb_rows (header : Str) : (sampleOrb header).coefs.length = 6 ∧
    ∀ r ∈ (sampleOrb header).rows, CoefLine r.1 r.2 ∧ r.2 ≠ [] := by
  refine ⟨by rfl, fun r hr => ?_⟩
  simp only [sampleOrb, List.mem_cons, List.not_mem_nil, or_false] at hr
  rcases hr with rfl | rfl
  · exact ⟨coefLine_of [((lit " 0.99000000D+00"), 0), ((lit " 2.00000000D+01"), 20), ((lit "-3.00000000D+00"), -3),
      ((lit " 4.00000000D+00"), 4), ((lit " 5.00000000D+00"), 5)] (by decide) (by decide) (by decide) (by decide) (by decide) (by decide), by simp⟩
  · exact ⟨coefLine_of [((lit " 6.00000000D+00"), 6)] (by decide) (by decide) (by decide) (by decide) (by decide) (by decide), by simp⟩

theorem sample_tables : CoefTable .alpha 6 sampleA ∧ CoefTable .beta 6 sampleB := by
  refine ⟨⟨by simp [sampleA], by decide, ?_, by simp, ?_, ?_⟩, ⟨by simp [sampleB], by decide, ?_, ?_, ?_, ?_⟩⟩
  · intro o ho; simp only [sampleA, List.head?_cons, Option.mem_def, Option.some.injEq] at ho; subst ho; exact contains_of (by decide)
  · intro o ho; simp only [sampleA, List.tail_cons, List.mem_singleton] at ho; subst ho
    exact ⟨contains_of (by decide), contains_of (by decide)⟩
  · intro o ho; simp only [sampleA, List.mem_cons, List.not_mem_nil, or_false] at ho
    rcases ho with rfl | rfl <;> exact ⟨isLine_of (by decide), sampleOrb_rows _⟩
  · intro o ho; simp only [sampleB, List.head?_cons, Option.mem_def, Option.some.injEq] at ho; subst ho; exact contains_of (by decide)
  · intro _ o ho; simp only [sampleB, List.head?_cons, Option.mem_def, Option.some.injEq] at ho; subst ho; exact not_contains_of (by decide)
  · intro o ho; simp only [sampleB, List.tail_cons, List.mem_singleton] at ho; subst ho
    exact ⟨contains_of (by decide), contains_of (by decide)⟩
  · intro o ho; simp only [sampleB, List.mem_cons, List.not_mem_nil, or_false] at ho
    rcases ho with rfl | rfl <;> exact ⟨isLine_of (by decide), sampleOrb_rows _⟩

theorem pun_plain_of {l : Str} (h1 : l.contains '\n' = false) (h2 : foundSubStrInStr l (lit " 1 Alpha MO ") = false)
    (h3 : foundSubStrInStr l (lit " 1 Beta MO ") = false) : Pun.Plain l := ⟨isLine_of h1, not_contains_of h2, not_contains_of h3⟩

example : readGausCoefLine (lit " 0.99000000D+00 2.00000000D+01-3.000") = (.ok [0, 20] : Res (List Int)) :=
  C75_fields [((lit " 0.99000000D+00"), 0), ((lit " 2.00000000D+01"), 20)] (lit "-3.000") (by decide)
    (by intro f hf; simp only [List.mem_cons, List.not_mem_nil, or_false] at hf; rcases hf with rfl | rfl <;> exact field_of (by decide))
    (by unfold Fits; decide)

/-- A field that is no number. -/
example : readGausCoefLine (lit " 0.99000000D+00      nothing   ") = (.throw .invalidArgument : Res (List Int)) :=
  (C75_every_line _ (by unfold Fits; decide)).trans (by decide)

/-- A closed shell: the only table ends the file. -/
example : ∃ d, Ends (fun n => (readPun (holding (lit "a.pun") (unlines [(lit "(5D15.8)")] ++ tableText sampleA)) n (lit "a.pun") : Res (PunData Int))) (.ok d) ∧
    ∃ m, d.getCoefsMatrix (lit "Alpha") = .ok m ∧ m.rows = 2 ∧ m.cols = 6 ∧ m.getElem2 2 6 = .ok 6 ∧ d.restrictedShell = true := by
  obtain ⟨d, h1, h2, h3⟩ := C76_coefs_partial (holding (lit "a.pun") (unlines [(lit "(5D15.8)")] ++ tableText sampleA)) _ fits_pun plain_pun
    [.plain (lit "(5D15.8)")] (.table .alpha 6 sampleA)
    ⟨by intro p hp; simp only [List.mem_singleton] at hp; subst hp; exact pun_plain_of (by decide) (by decide) (by decide),
      sample_tables.1, by decide⟩ (by simp [holding, punText, Pun.Piece.text, Ending.text, unlines])
  obtain ⟨m, m1, m2, m3, m4⟩ := (h2 .alpha).1 sampleA rfl
  exact ⟨d, h1, m, m1, m2, (m3 _ (List.mem_cons_self ..)).trans (by rfl), m4 1 (by decide) 5 (by decide), h3.2 (by decide)⟩

/-- An open shell with a line between the tables. -/
example : ∃ d, Ends (fun n => (readPun (holding (lit "a.pun") (unlines [(lit "(5D15.8)")] ++ (tableText sampleA ++
      (unlines [(lit " ---")] ++ tableText sampleB)))) n (lit "a.pun") : Res (PunData Int))) (.ok d) ∧
    (∃ m, d.getCoefsMatrix (lit "Alpha") = .ok m ∧ m.rows = 2 ∧ m.cols = 6) ∧
    (∃ m, d.getCoefsMatrix (lit "Beta") = .ok m ∧ m.rows = 2 ∧ m.cols = 6) ∧ d.restrictedShell = false :=
  C77_separated_partial [(lit "(5D15.8)")] [] (lit " ---") 6 6 sampleA sampleB
    (by intro l hl; simp only [List.mem_singleton] at hl; subst hl; exact pun_plain_of (by decide) (by decide) (by decide))
    sample_tables.1 (isLine_of (by decide)) ⟨not_contains_of (by decide), by intro h; exact absurd h (by decide)⟩ (by simp) sample_tables.2 (by decide) _ _ fits_pun plain_pun rfl

/-- The same file without that line: Beta is lost. -/
example : ∃ d, Ends (fun n => (readPun (holding (lit "a.pun") (unlines [(lit "(5D15.8)")] ++ (tableText sampleA ++ tableText sampleB)))
      n (lit "a.pun") : Res (PunData Int))) (.ok d) ∧ d.getCoefsMatrix (lit "Beta") = .throw .invalidArgument ∧ d.restrictedShell = true :=
  C77_refuted [(lit "(5D15.8)")] 6 6 sampleA (sampleOrb (lit "    1 Beta MO OE=-0.8D+01")) [sampleOrb (lit "    2 Beta MO OE= 0.2D+00")]
    (by intro l hl; simp only [List.mem_singleton] at hl; subst hl; exact pun_plain_of (by decide) (by decide) (by decide))
    sample_tables.1 sample_tables.2 ⟨not_contains_of (by decide), by intro h; exact absurd h (by decide)⟩
    (by intro l hl
        simp only [sampleOrb, Orbital.lines, List.map_cons, List.map_nil, List.flatMap_cons, List.flatMap_nil, List.mem_append, List.mem_cons,
          List.not_mem_nil, or_false] at hl
        rcases hl with (rfl | rfl) | rfl | rfl | rfl <;> exact pun_plain_of (by decide) (by decide) (by decide)) _ _ fits_pun plain_pun rfl

/-- A single orbital at the end of a file. -/
example : Hangs (fun k => (readPun (holding (lit "a.pun") (unlines [] ++ tableText [sampleOrb (lit "    1 Alpha MO OE=-0.9D+01")])) k (lit "a.pun") :
    Res (PunData Int))) :=
  C76_refuted [] (by simp) .alpha 6 (sampleOrb (lit "    1 Alpha MO OE=-0.9D+01"))
    ⟨by simp, by decide, by intro o ho; simp only [List.head?_cons, Option.mem_def, Option.some.injEq] at ho; subst ho; exact contains_of (by decide),
      by simp, by simp, by intro o ho; simp only [List.mem_singleton] at ho; subst ho; exact ⟨isLine_of (by decide), sampleOrb_rows _⟩⟩ _ _ fits_pun plain_pun rfl

end Verif.Readers
