import Verif.Props.ArgLeft
/-
Property C134: a parser that refused a command line.
-/
namespace Verif.Args
open Strings

section
variable {D : Type} [Dbl D]

theorem RulesAfter.rules {fs : FS} {p q : Parser D} {as : List (Str × Option Str)} (h : RulesAfter fs p as q) : Rules fs p as q := by
  refine ⟨h.flags, h.same.kind, fun fs' f v => h.acceptable f v, fun f => ?_⟩
  unfold NeedsFile
  rcases h.files f with ⟨e1, e2⟩ | ⟨a, b, e1, e2, e3, -, e5⟩
  · rw [e1, e2]; simp
  · rw [e1, e2]
    constructor
    · rintro ⟨b', m, h1, h2, h3, h4⟩
      cases h1
      obtain ⟨h5, h6⟩ := e5.1 h4
      exact ⟨⟨a, m, rfl, (e3 m).1 h2, h3, h5⟩, h6⟩
    · rintro ⟨⟨a', m, h1, h2, h3, h4⟩, h5⟩
      cases h1
      exact ⟨b, m, rfl, (e3 m).2 h2, h3, e5.2 ⟨h4, h5⟩⟩

/-- What an acceptable beginning and then a mistake leave behind. -/
theorem refused_parts (fs : FS) {p q : Parser D} (h : ParserReached p) (o : Orderly p) (en : Enforcing p) {args : List Str}
    (hfit : ∀ v ∈ args, Fits v) {e' : Exn} (hq : parseL fs p args = (q, .throw e'))
    {as : List (Str × Option Str)} {rest : List Str} {e : Exn} {tried : List (Str × Option Str)} {word : Option (Str × Str)}
    (hb : Begins fs p args as rest) (hm : Mistake fs p rest e tried word) :
    e' = e ∧ ∃ pre p1, args = pre ++ rest ∧ Fine fs p pre as ∧ RulesAfter fs p as p1 ∧ Holds p as p1 ∧ Upset fs p1 tried word q ∧ ArgsOk p1 ∧
      (as = [] → p1 = p) ∧ (as ≠ [] → p1 = (parseL fs p pre).1) := by
  have ok := h.argsOk
  have hr := hm.nonempty
  obtain ⟨pre, p1, al1, e1, e2, e3, e4, e5⟩ := begins_loop (size := args.length + 1) hr (allowed := 2) hb hfit o ok (by omega)
  have hfp : ∀ v ∈ pre, Fits v := fun v hv => hfit v (by rw [e1]; simp [hv])
  have l := e5 (pre.length + 2) 2 (by omega) (fun _ => by omega)
  obtain ⟨as1, b1, -, b3⟩ := (loop_accepts (fs := fs) (size := pre.length + 2) pre.length pre (Nat.le_refl _) hfp p 2 o ok (by omega) (by omega)).1 p1 l
  obtain rfl := b1.says.unique o e2.says
  obtain ⟨as2, c1, -, c3⟩ := loop_says pre.length pre (Nat.le_refl _) p 2 p1 o l
  obtain rfl := c1.unique o e2.says
  have en1 : Enforcing p1 := fun f a ha => en f a (by rw [← b3.strs]; exact ha)
  obtain ⟨q', m1, m2⟩ := mistake_left fs (b3.same.orderly o) e4 en1 (b3.mistake hm) (fun v hv => hfit v (by rw [e1]; simp [hv])) (args.length + 1) al1
  have hne : args ≠ [] := by rw [e1]; simp [hr]
  unfold parseL at hq
  rw [if_neg hne, e3, m1] at hq
  cases hq
  refine ⟨rfl, pre, p1, e1, e2, b3, c3, m2, e4, fun ha => ?_, fun ha => ?_⟩
  · subst ha
    have key : ∀ {pre : List Str} {bs : List (Str × Option Str)}, Fine fs p pre bs → bs = [] → ∀ size al, parseLoop fs size 0 al p pre = .ok p1 → p1 = p := by
      intro pre bs hf
      induction hf with
      | nil => intro _ size al hl; cases hl; rfl
      | info hi _ ih =>
        intro hb size al hl
        rw [loop_info fs size al p hi] at hl
        split at hl
        · cases hl
        · exact ih hb _ _ hl
      | value => intro hb; cases hb
      | switch => intro hb; cases hb
    exact key e2 rfl _ _ l
  · have l2 := e5 (pre.length + 1) 2 (by omega) (fun hn => absurd hn ha)
    have hpre : pre ≠ [] := by rintro rfl; cases e2; exact ha rfl
    rw [← parseLoopL_outcome] at l2
    unfold parseL
    rw [if_neg hpre]
    generalize parseLoopL fs (pre.length + 1) 0 2 p pre = x at l2
    obtain ⟨s, r⟩ := x
    cases r <;> cases l2
    rfl

/-- C134: what is left of a command line that was refused. Nothing, if it was empty. Otherwise the values of the flags before the mistake stay,
as does the setting of a switch at which it was refused; all else is as it was, but a file that must exist need no longer be named if one of
the paths looked at exists. -/
theorem C134_left (fs : FS) {p q : Parser D} (h : ParserReached p) (o : Orderly p) (en : Enforcing p) (hd : StodOk D) {args : List Str}
    (hfit : ∀ v ∈ args, Fits v) {e : Exn} (hq : parseL fs p args = (q, .throw e)) :
    (args = [] ∧ q = p) ∨
    (∃ as rest tried word, Begins fs p args as rest ∧ Mistake fs p rest e tried word ∧ Seen p as q (Worded word) ∧
      (∀ f u, word = some (f, u) → getInt q f = .ok (if u ∈ [(lit "ON"), (lit "TRUE"), (lit "1")] then 1 else 0) ∧ getStr q f = .ok u) ∧
      Rules fs p (as ++ tried) q) ∨
    ∃ as, Fine fs p args as ∧ as ≠ [] ∧ (∃ f, NeedsFile p f ∧ ∀ v, (f, some v) ∉ as) ∧ Seen p as q (fun _ => False) ∧ Rules fs p as q := by
  have ok := h.argsOk
  have ht : parse fs p args = .throw e := by
    rw [← C134_result, hq]; rfl
  rcases (C131_throws fs h o en hd args hfit e).1 ht with ⟨h0, -⟩ | hr | ⟨⟨as, a1, a2, a3⟩, -⟩
  · refine .inl ⟨h0, ?_⟩
    subst h0
    cases hq; rfl
  · obtain ⟨as, rest, tried, word, hb, hm⟩ := (refuses_iff fs p args e).1 hr
    obtain ⟨-, pre, p1, e1, e2, e3, e4, e5, e6, -⟩ := refused_parts fs h o en hfit hq hb hm
    refine .inr (.inl ⟨as, rest, tried, word, hb, hm, ?_, ?_, (e3.trans (e5.rules e6)).rules⟩)
    · refine (e4.seen o e3.same).alike e5.alike ?_
      rintro f ⟨u, hu⟩
      exact (e3.same.kind f .switch).1 (e5.word f u hu).1
    · intro f u hu
      obtain ⟨k1, k2, k3⟩ := e5.word f u hu
      exact ⟨by simp only [getInt, k3], by simp only [getStr, k2]⟩
  · right; right
    have h0 : args ≠ [] := by rintro rfl; cases a1; exact a2 rfl
    obtain ⟨l1, l2⟩ := loop_accepts (fs := fs) (size := args.length + 1) args.length args (Nat.le_refl _) hfit p 2 o ok (by omega) (by
      have := List.length_pos_iff.2 h0; omega)
    obtain ⟨q', l⟩ := l2 as a1 (fun _ => a2)
    obtain ⟨as', b1, -, b3⟩ := l1 q' l
    obtain rfl := b1.says.unique o a1.says
    obtain ⟨as2, c1, -, c3⟩ := loop_says args.length args (Nat.le_refl _) p 2 q' o l
    obtain rfl := c1.unique o a1.says
    have hqq : q = q' := by
      unfold parseL at hq
      rw [if_neg h0] at hq
      rw [← parseLoopL_outcome] at l
      generalize parseLoopL fs (args.length + 1) 0 2 p args = x at l hq
      obtain ⟨s, r⟩ := x
      cases r <;> cases l
      exact (congrArg Prod.fst hq).symm
    subst hqq
    exact ⟨_, a1, a2, a3, c3.seen o b3.same, b3.rules⟩

/-- C134: put differently, the parser is as if it had been given the beginning alone, but for the setting of a switch and, if the
mistake is a path, for the record whether a file was seen. -/
theorem C134_beginning (fs : FS) {p q : Parser D} (h : ParserReached p) (o : Orderly p) (en : Enforcing p) {args : List Str}
    (hfit : ∀ v ∈ args, Fits v) {e' : Exn} (hq : parseL fs p args = (q, .throw e'))
    {as : List (Str × Option Str)} {rest : List Str} {e : Exn} {tried : List (Str × Option Str)} {word : Option (Str × Str)}
    (hb : Begins fs p args as rest) (hm : Mistake fs p rest e tried word) :
    e' = e ∧ ∃ pre q', args = pre ++ rest ∧ Fine fs p pre as ∧ (as = [] → q' = p) ∧ (as ≠ [] → q' = (parseL fs p pre).1) ∧
      Alike q q' (Worded word) (DoesExist tried) ∧
      ∀ f v, (f, some v) ∈ tried → HasArg p f .file →
        getFlagArgOptValue q f (lit "ARGUMENT_FILE") (lit "PROPERTY_FILE_EXIST") (lit "FILE_DOES_EXIST") =
          if fs v = true then .ok (lit "1")
          else getFlagArgOptValue q' f (lit "ARGUMENT_FILE") (lit "PROPERTY_FILE_EXIST") (lit "FILE_DOES_EXIST") := by
  obtain ⟨ee, pre, p1, e1, e2, e3, e4, e5, e6, e7, e8⟩ := refused_parts fs h o en hfit hq hb hm
  refine ⟨ee, pre, p1, e1, e2, e7, e8, e5.alike, fun f v hv hf => ?_⟩
  have okq := e5.ok e6
  rw [getFlagArgOptValue_eq okq, getFlagArgOptValue_eq e6]
  have lk : ∀ r : Parser D, lookup r f (lit "ARGUMENT_FILE") (lit "PROPERTY_FILE_EXIST") (lit "FILE_DOES_EXIST") =
      inMap r.fileArg f (lit "PROPERTY_FILE_EXIST") (lit "FILE_DOES_EXIST") := by
    intro r
    unfold lookup
    rw [if_neg (by decide), if_neg (by decide), if_pos rfl]
  rw [lk, lk]
  rcases e5.files f with ⟨a, -⟩ | ⟨a, g1, ⟨g2, -⟩ | ⟨v', o', g3, g4, g2⟩⟩
  · exact absurd ((e3.same.kind f .file).2 hf) (by simp [HasArg, a])
  · exact absurd hv (g2 v)
  · rw [g3] at hv
    obtain rfl : v = v' := by simpa using hv
    unfold inMap
    rw [g1, g2]
    simp only [Option.map_some, Option.getD_some]
    by_cases c : fs v = true
    · rw [if_pos c, if_pos c]
      unfold ArgObj.propertyValue
      dsimp only
      have : findValue intToStr (lit "PROPERTY_FILE_EXIST") (lit "FILE_DOES_EXIST") ([⟨fileExistVT, o'.set (lit "FILE_DOES_EXIST") 1⟩] : List (PropObj Str Int))
          = some (.ok (lit "1")) := by
        simp only [findValue]
        rw [if_pos ⟨rfl, by decide⟩]
        unfold getOpt
        rw [Map.get_set_self]
        rfl
      rw [this]
      rfl
    · rw [if_neg c, if_neg c]
      congr 1
      rw [← g4]

/-- C134: which command lines are accepted after one was refused: those that were before, but a file of which an existing path was looked at
need not be named. -/
theorem C134_retry (fs : FS) {p q : Parser D} (h : ParserReached p) (o : Orderly p) (en : Enforcing p) (hd : StodOk D) {args : List Str}
    (hfit : ∀ v ∈ args, Fits v) {e : Exn} (hq : parseL fs p args = (q, .throw e)) :
    ParserReached q ∧ Orderly q ∧ Enforcing q ∧ ∃ seen, Looked fs p args seen ∧
      ∀ fs' args', (∀ v ∈ args', Fits v) →
        ((∃ r, parse fs' q args' = .ok r) ↔
          ∃ as', Fine fs' p args' as' ∧ as' ≠ [] ∧
            ∀ f, NeedsFile p f → (∃ v, (f, some v) ∈ as') ∨ ∃ v, (f, some v) ∈ seen ∧ fs v = true) ∧
        ∀ r, parse fs' q args' = .ok r → ∃ as', Says p args' as' ∧ Seen q as' r (fun _ => False) := by
  have rq : ParserReached q := .refused fs args h hq
  have key : ∃ seen, Looked fs p args seen ∧ RulesAfter fs p seen q := by
    have ht : parse fs p args = .throw e := by rw [← C134_result, hq]; rfl
    rcases (C131_throws fs h o en hd args hfit e).1 ht with ⟨h0, -⟩ | hr | ⟨⟨as, a1, a2, a3⟩, -⟩
    · subst h0
      cases hq
      exact ⟨[], .nothing, .refl _ _⟩
    · obtain ⟨as, rest, tried, word, hb, hm⟩ := (refuses_iff fs p args e).1 hr
      obtain ⟨-, pre, p1, e1, e2, e3, e4, e5, e6, -⟩ := refused_parts fs h o en hfit hq hb hm
      exact ⟨as ++ tried, .mistake hb hm, e3.trans (e5.rules e6)⟩
    · have h0 : args ≠ [] := by rintro rfl; cases a1; exact a2 rfl
      obtain ⟨l1, l2⟩ := loop_accepts (fs := fs) (size := args.length + 1) args.length args (Nat.le_refl _) hfit p 2 o h.argsOk (by omega) (by
        have := List.length_pos_iff.2 h0; omega)
      obtain ⟨q', l⟩ := l2 as a1 (fun _ => a2)
      obtain ⟨as', b1, -, b3⟩ := l1 q' l
      have hqq : q = q' := by
        unfold parseL at hq
        rw [if_neg h0] at hq
        rw [← parseLoopL_outcome] at l
        generalize parseLoopL fs (args.length + 1) 0 2 p args = x at l hq
        obtain ⟨s, r⟩ := x
        cases r <;> cases l
        exact (congrArg Prod.fst hq).symm
      subst hqq
      exact ⟨as', .whole b1, b3⟩
  obtain ⟨seen, lk, ra⟩ := key
  have oq := ra.same.orderly o
  refine ⟨rq, oq, fun f a ha => en f a (by rw [← ra.strs]; exact ha), seen, lk, fun fs' args' hfit' => ⟨?_, fun r hr => ?_⟩⟩
  · rw [C106_accepts fs' rq oq args' hfit']
    constructor
    · rintro ⟨as', b1, b2, b3⟩
      refine ⟨as', (ra.fine _ _).1 b1, b2, fun f hf => ?_⟩
      by_cases c : ∀ v, (f, some v) ∈ seen → fs v = false
      · exact .inl (b3 f ((ra.rules.needs f).2 ⟨hf, c⟩))
      · push Not at c
        obtain ⟨v, c1, c2⟩ := c
        exact .inr ⟨v, c1, by simpa using c2⟩
    · rintro ⟨as', b1, b2, b3⟩
      refine ⟨as', (ra.fine _ _).2 b1, b2, fun f hf => ?_⟩
      obtain ⟨n1, n2⟩ := (ra.rules.needs f).1 hf
      rcases b3 f n1 with k | ⟨v, k1, k2⟩
      · exact k
      · rw [n2 v k1] at k2; cases k2
  · unfold parse at hr
    split at hr
    · cases hr
    · obtain ⟨r', e1, hr⟩ := Res.bind_eq_ok.1 hr
      obtain ⟨u, -, hr⟩ := Res.bind_eq_ok.1 hr
      cases hr
      obtain ⟨as', c1, c2, c3⟩ := loop_says args'.length args' (Nat.le_refl _) q 2 r oq e1
      refine ⟨as', ?_, c3.seen oq c2⟩
      exact ra.same.says c1

end
end Verif.Args
