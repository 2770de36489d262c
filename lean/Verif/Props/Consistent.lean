import Verif.Safe
import Verif.ConcreteNum
import Verif.Props.ReadersA
/-
Property C115: whatever the file, what was read is consistent.
-/
namespace Verif
open Strings

namespace Mat
variable {α : Type}

/-- A symmetric `n × n` matrix with one shelf. -/
def Sym (n : Int) (m : Mat α) : Prop := 1 ≤ n ∧ ∃ f : Int → Int → α, IsMat m n n 1 (fun a b _ => f a b) ∧ ∀ a b, f a b = f b a

theorem mk2_sym [Zero α] (n : Int) : Safe (Sym n) (mk2 n n : Res (Mat α)) := by
  by_cases h : 1 ≤ n
  · obtain ⟨m, hm, hi⟩ := mk2_isMat (α := α) h h
    rw [hm]; exact .ok ⟨h, fun _ _ => 0, hi.congr (fun _ _ _ _ => rfl), fun _ _ => rfl⟩
  · unfold mk2
    rw [if_pos (by omega)]; exact .exit _

/-- Writing a value at both places keeps the matrix symmetric. -/
theorem set_sym {n : Int} {m : Mat α} (h : Sym n m) (v : α) (i j : Int) :
    Safe (Sym n) ((m.setElem2 v i j) >>= fun m => if i ≠ j then m.setElem2 v j i else Res.ok m) := by
  obtain ⟨hn, f, hf, hs⟩ := h
  by_cases hi : 1 ≤ i ∧ i ≤ n ∧ 1 ≤ j ∧ j ≤ n
  · obtain ⟨a1, a2, b1, b2⟩ := hi
    obtain ⟨m', e, hm⟩ := hf.set2 (by omega) a1 a2 b1 b2 v
    rw [e, Res.ok_bind]
    by_cases hij : i = j
    · subst hij
      rw [if_neg (by simp)]
      refine .ok ⟨hn, fun a b => if a = i ∧ b = i then v else f a b, hm.congr ?_, ?_⟩
      · intro a b c hr
        have hc : c = 1 := by unfold InR at hr; omega
        subst hc
        simp only [upd]
        by_cases h1 : a = i ∧ b = i
        · simp [h1]
        · rw [if_neg (by intro h; exact h1 ⟨h.1, h.2.1⟩), if_neg h1]
      · intro a b
        dsimp only
        by_cases h1 : a = i ∧ b = i
        · rw [if_pos h1, if_pos h1.symm]
        · rw [if_neg h1, if_neg (fun h => h1 h.symm), hs]
    · rw [if_pos hij]
      obtain ⟨m2, e2, hm2⟩ := hm.set2 (by omega) b1 b2 a1 a2 v
      rw [e2]
      refine .ok ⟨hn, fun a b => if (a = i ∧ b = j) ∨ (a = j ∧ b = i) then v else f a b, hm2.congr ?_, ?_⟩
      · intro a b c hr
        have hc : c = 1 := by unfold InR at hr; omega
        subst hc
        simp only [upd]
        by_cases h1 : a = j ∧ b = i
        · simp [h1]
        · by_cases h2 : a = i ∧ b = j
          · simp [h2]
          · rw [if_neg (by intro h; exact h1 ⟨h.1, h.2.1⟩), if_neg (by intro h; exact h2 ⟨h.1, h.2.1⟩), if_neg (by intro h; exact h.elim h2 h1)]
      · intro a b
        dsimp only
        have : ((a = i ∧ b = j) ∨ (a = j ∧ b = i)) ↔ ((b = i ∧ a = j) ∨ (b = j ∧ a = i)) := by
          constructor <;> (rintro (⟨h1, h2⟩ | ⟨h1, h2⟩)) <;> simp [h1, h2]
        by_cases h1 : (a = i ∧ b = j) ∨ (a = j ∧ b = i)
        · rw [if_pos h1, if_pos (this.1 h1)]
        · rw [if_neg h1, if_neg (fun h => h1 (this.2 h)), hs]
  · rw [set2_exit v (by rw [hf.rows, hf.cols]; exact hi)]; exact .exit _

theorem set_sym_then {n : Int} {m : Mat α} (h : Sym n m) (v : α) (i j : Int) {γ : Type} {Q : γ → Prop} {k : Mat α → Res γ}
    (hk : ∀ m, Sym n m → Safe Q (k m)) :
    Safe Q ((m.setElem2 v i j) >>= fun m => if i ≠ j then (m.setElem2 v j i) >>= k else k m) := by
  have := (set_sym h v i j).bind hk
  rw [bind_assoc] at this
  have e : (fun m => (if i ≠ j then m.setElem2 v j i else Res.ok m) >>= k) = fun m : Mat α => if i ≠ j then (m.setElem2 v j i) >>= k else k m := by
    funext m; split <;> rfl
  rwa [e] at this

end Mat

namespace Readers
open Mat
variable {α : Type} [Mul α] [Num α]

section
omit [Mul α] [Num α]

theorem overlapSetRow_sym {n : Int} (rowInd colInd : Int) (row : List α) (m : Mat α) (h : Sym n m) :
    Safe (Sym n) (overlapSetRow rowInd colInd row m) := by
  induction row generalizing colInd m with
  | nil => exact .ok h
  | cons v row ih => rw [overlapSetRow]; exact set_sym_then h _ _ _ fun m hm => ih _ _ hm

theorem overlapSetRows_sym {n : Int} (rowInd : Int) (rows : List (List α)) (m : Mat α) (h : Sym n m) :
    Safe (Sym n) (overlapSetRows rowInd rows m) := by
  induction rows generalizing rowInd m with
  | nil => exact .ok h
  | cons row rows ih => rw [overlapSetRows]; exact (overlapSetRow_sym _ _ _ _ h).bind fun m1 h1 => ih _ _ h1

end

theorem overlapCoef_sym {n : Int} (start sc : Int) (st : Mat α × Int) (s : Str) (h : Sym n st.1) :
    Safe (fun r => Sym n r.1) (overlapCoef start sc st s) := by
  unfold overlapCoef
  exact (fortran_safe _).bind fun v _ => set_sym_then h _ _ _ fun m hm => .ok hm

theorem overlapBlock_sym {n : Int} (start : Int) (k : Nat) (sc : Int) (fid : Stream) (line : Str) (m : Mat α) (h : Sym n m) :
    Safe (fun r => Sym n r.2.2) (overlapBlock start k sc fid line m) := by
  induction k generalizing sc fid line m with
  | zero => exact .ok h
  | succ k ih =>
    rw [overlapBlock]
    exact (restOf_safe (P := fun r : Mat α × Int => Sym n r.1) (fun a s ha => overlapCoef_sym _ _ _ _ ha) _ _ h).bind
      fun r hr => ih _ _ _ _ hr

theorem overlapBlocks_sym {n : Int} (cnt : Int) (k : Nat) (start : Int) (fid : Stream) (line : Str) (m : Mat α) (h : Sym n m) :
    Safe (fun r => Sym n r.2) (overlapBlocks cnt k start fid line m) := by
  induction k generalizing start fid line m with
  | zero => exact .ok h
  | succ k ih =>
    rw [overlapBlocks]
    exact (overlapBlock_sym _ _ _ _ _ _ h).bind fun r hr => ih _ _ _ _ hr

/-- A map with no other keys than the two spins. -/
def Spins {V : Type} (d : Map V) : Prop :=
  d = [] ∨ (∃ a, d = [((lit "Alpha"), a)]) ∨ (∃ b, d = [((lit "Beta"), b)]) ∨ ∃ a b, d = [((lit "Alpha"), a), ((lit "Beta"), b)]

theorem Spins.set {V : Type} {d : Map V} (h : Spins d) {k : Str} (hk : k = (lit "Alpha") ∨ k = (lit "Beta")) (v : V) : Spins (d.set k v) := by
  rcases hk with rfl | rfl <;> rcases h with rfl | ⟨a, rfl⟩ | ⟨b, rfl⟩ | ⟨a, b, rfl⟩
  · exact .inr (.inl ⟨_, rfl⟩)
  · exact .inr (.inl ⟨_, rfl⟩)
  · exact .inr (.inr (.inr ⟨_, _, rfl⟩))
  · exact .inr (.inr (.inr ⟨_, _, rfl⟩))
  · exact .inr (.inr (.inl ⟨_, rfl⟩))
  · exact .inr (.inr (.inr ⟨_, _, rfl⟩))
  · exact .inr (.inr (.inl ⟨_, rfl⟩))
  · exact .inr (.inr (.inr ⟨_, _, rfl⟩))

theorem Spins.key {V : Type} {d : Map V} (h : Spins d) {k : Str} {v : V} (hk : d.get k = some v) : k = (lit "Alpha") ∨ k = (lit "Beta") := by
  have := Map.get_mem hk
  rcases h with rfl | ⟨a, rfl⟩ | ⟨b, rfl⟩ | ⟨a, b, rfl⟩ <;> simp only [List.mem_cons, List.not_mem_nil, Prod.mk.injEq, or_false] at this
  · exact .inl this.1
  · exact .inr this.1
  · exact this.elim (fun h => .inl h.1) (fun h => .inr h.1)

theorem Spins.one {V : Type} {d : Map V} (h : Spins d) : d.length = 1 ↔ ((d.get (lit "Alpha")).isSome ≠ (d.get (lit "Beta")).isSome) := by
  rcases h with rfl | ⟨a, rfl⟩ | ⟨b, rfl⟩ | ⟨a, b, rfl⟩
  · simp
  · exact ⟨fun _ h => (by cases h), fun _ => rfl⟩
  · exact ⟨fun _ h => (by cases h), fun _ => rfl⟩
  · exact ⟨fun h => (by cases h), fun h => absurd rfl h⟩

/-- What holds of a `LogReader` at all times. -/
structure LogInv (d : LogData α) : Prop where
  S : ∀ m, d.S = some m → ∃ n, Sym n m
  xyz : GoodX d
  homo : Spins d.homo
  oe : Spins d.oe
  both : ∀ k, (d.oe.get k).isSome = (d.homo.get k).isSome
  level : ∀ k v n, d.oe.get k = some v → d.homo.get k = some n → 0 ≤ n ∧ n ≤ v.length
  orb : ∀ e ∈ d.orb, e.2 ≠ []

section
omit [Mul α]

theorem Map.set_ne_nil {V : Type} (m : Map V) (k : Str) (v : V) : m.set k v ≠ [] := by
  intro h
  have := Map.get_set_self m k v
  rw [h] at this; cases this

omit [Num α] in
theorem orb_set {orb : OrbCont α} (h : ∀ e ∈ orb, e.2 ≠ []) (key : Int × Str) (t : Str) (vals : List α) : ∀ e ∈ orb.set key t vals, e.2 ≠ [] := by
  induction orb with
  | nil => intro e he; simp only [OrbCont.set, List.mem_singleton] at he; subst he; exact Map.set_ne_nil _ _ _
  | cons x orb ih =>
    obtain ⟨k, m⟩ := x
    intro e he
    rw [OrbCont.set] at he
    have ht := ih fun e he => h e (List.mem_cons_of_mem _ he)
    split at he
    · rcases List.mem_cons.1 he with rfl | he
      · exact Map.set_ne_nil _ _ _
      · exact h e (List.mem_cons_of_mem _ he)
    · split at he
      · rcases List.mem_cons.1 he with rfl | he
        · exact Map.set_ne_nil _ _ _
        · exact h e he
      · rcases List.mem_cons.1 he with rfl | he
        · exact h _ (by simp)
        · exact ht e he

omit [Num α] in
theorem LogInv.orbSet {d : LogData α} (h : LogInv d) (key : Int × Str) (t : Str) (vals : List α) :
    LogInv { d with orb := d.orb.set key t vals } :=
  ⟨h.S, h.xyz, h.homo, h.oe, h.both, h.level, orb_set h.orb _ _ _⟩

theorem aoRows_inv (atom : Int) (el : Str) (fuel : Nat) (r : FR (LogData α)) (line e2 o : Str) (h : LogInv r.data) :
    Safe (fun x => LogInv x.1.data) (aoRows atom el fuel r line e2 o) := by
  induction fuel generalizing r line e2 o with
  | zero => exact .diverge
  | succ n ih =>
    rw [aoRows]
    refine .ite (fun _ => .ok h) (fun _ => ?_)
    refine (restOf_safe (P := fun _ => True) (fun a s _ => pushBack_safe stod_safe a s) _ _ trivial).bind fun vals _ => ?_
    simp only []
    exact .ite (fun _ => .ok (h.orbSet _ _ _)) (fun _ => ih _ _ _ _ (h.orbSet _ _ _))

theorem aoAtoms_inv (fuel : Nat) (atom : Int) (r : FR (LogData α)) (line : Str) (h : LogInv r.data) :
    Safe (fun r => LogInv r.data) (aoAtoms fuel atom r line) := by
  induction fuel generalizing atom r line with
  | zero => exact .diverge
  | succ n ih =>
    rw [aoAtoms]
    refine (restOf_safe (P := fun _ => True) (fun a s _ => pushBack_safe stod_safe a s) _ _ trivial).bind fun vals _ => ?_
    refine (vecAt_safe _ _).bind fun c9 _ => (vecAt_safe _ _).bind fun c10 _ => ?_
    refine Safe.bind (P := fun x => LogInv x.1.data) (aoRows_inv _ _ _ _ _ _ _ (h.orbSet _ _ _)) fun x hx => ?_
    exact .ite (fun _ => .ok hx) (fun _ => ih _ _ _ hx)

theorem LogInv.push {k : Str} (hk : k = (lit "Alpha") ∨ k = (lit "Beta")) (occ : Bool) (v : List Str) (d : LogData α) (h : LogInv d)
    (hin : (d.homo.get k).isSome) : LogInv (pushEnergies k occ v d) := by
  induction v generalizing d with
  | nil => exact h
  | cons s v ih =>
    rw [pushEnergies]
    obtain ⟨n, hn⟩ := Option.isSome_iff_exists.1 hin
    have hv := h.both k
    rw [hin] at hv
    obtain ⟨w, hw⟩ := Option.isSome_iff_exists.1 hv
    have hl := h.level k w n hw hn
    apply ih
    · refine ⟨h.S, h.xyz, ?_, h.oe.set hk _, ?_, ?_, h.orb⟩
      · dsimp only; split
        · exact h.homo.set hk _
        · exact h.homo
      · intro k'
        dsimp only
        have hb := h.both k'
        by_cases e : k' = k
        · subst e
          rw [Map.get_set_self]
          split
          · rw [Map.get_set_self]; rfl
          · rw [hin]; rfl
        · rw [Map.get_set_ne _ e]
          split
          · rw [Map.get_set_ne _ e]; exact hb
          · exact hb
      · intro k' v' n' e1 e2
        dsimp only at e1 e2
        by_cases e : k' = k
        · subst e
          rw [Map.get_set_self] at e1
          cases e1
          rw [hw]
          split at e2
          · rw [Map.get_set_self, hn] at e2
            cases e2
            simp; omega
          · rw [hn] at e2; cases e2; simp; omega
        · rw [Map.get_set_ne _ e] at e1
          split at e2
          · rw [Map.get_set_ne _ e] at e2; exact h.level _ _ _ e1 e2
          · exact h.level _ _ _ e1 e2
    · dsimp only; split
      · rw [Map.get_set_self]; rfl
      · exact hin

theorem push_isSome (k : Str) (occ : Bool) (v : List Str) (d : LogData α) (hin : (d.homo.get k).isSome) :
    ((pushEnergies k occ v d).homo.get k).isSome := by
  induction v generalizing d with
  | nil => exact hin
  | cons s v ih =>
    rw [pushEnergies]
    apply ih
    dsimp only; split
    · rw [Map.get_set_self]; rfl
    · exact hin

theorem energiesLoop_inv {k : Str} (hk : k = (lit "Alpha") ∨ k = (lit "Beta")) (fuel : Nat) (r : FR (LogData α)) (line : Str) (h : LogInv r.data)
    (hin : (r.data.homo.get k).isSome) : Safe (fun r => LogInv r.data) (energiesLoop k fuel r line) := by
  induction fuel generalizing r line with
  | zero => exact .diverge
  | succ n ih =>
    rw [energiesLoop]
    refine .ite (fun _ => .ok h) (fun _ => .ite (fun _ => ?_) (fun _ => .ok h))
    exact (splitStEnergies_safe _).bind fun v _ => ih _ _ (LogInv.push hk _ _ _ h hin) (push_isSome _ _ _ _ hin)

theorem readOrbEnergies_inv {k : Str} (hk : k = (lit "Alpha") ∨ k = (lit "Beta")) (fuel : Nat) (r : FR (LogData α)) (h : LogInv r.data) :
    Safe (fun r => LogInv r.data) (readOrbEnergies k fuel r) := by
  refine Safe.bind (energiesLoop_inv hk _ _ _ ?_ ?_) fun x hx => .ok hx
  · refine ⟨h.S, h.xyz, h.homo.set hk _, h.oe.set hk _, ?_, ?_, h.orb⟩
    · intro k'
      dsimp only
      by_cases e : k' = k
      · subst e; rw [Map.get_set_self, Map.get_set_self]; rfl
      · rw [Map.get_set_ne _ e, Map.get_set_ne _ e]; exact h.both k'
    · intro k' v' n' e1 e2
      dsimp only at e1 e2
      by_cases e : k' = k
      · subst e
        rw [Map.get_set_self] at e1 e2
        cases e1; cases e2; simp
      · rw [Map.get_set_ne _ e] at e1 e2; exact h.level _ _ _ e1 e2
  · dsimp only; rw [Map.get_set_self]; rfl

end

variable [Zero α]

theorem overlapReader_inv (fuel : Nat) (r : FR (LogData α)) (h : LogInv r.data) : Safe (fun r => LogInv r.data) (overlapReader fuel r) := by
  unfold overlapReader
  refine (overlapFirst_safe _ _ _ _ _ _).bind fun x _ => ?_
  refine (mk2_sym _).bind fun m hm => (overlapSetRows_sym _ _ _ hm).bind fun m hm => ?_
  refine (overlapBlocks_sym _ _ _ _ _ _ hm).bind fun y hy => .ok ⟨?_, h.xyz, h.homo, h.oe, h.both, h.level, h.orb⟩
  intro m' hm'
  simp only [Option.some.injEq] at hm'
  subst hm'
  exact ⟨_, hy⟩

theorem readLog_inv (fs : Str → Option Str) (fuel : Nat) (name : Str) : Safe LogInv (readLog fs fuel name : Res (LogData α)) := by
  unfold readLog
  refine Safe.bind (P := fun _ => True) ?_ fun _ _ => ?_
  · unfold logReaderNew
    exact (fileExt_safe _).bind fun e _ => .ite (fun _ => .throw _) (fun _ => checkSections_safe _)
  refine read_safe _ LogInv ?_ fs name fuel _ ⟨(by intro m hm; cases hm), .inl rfl, .inl rfl, .inl rfl, fun _ => rfl, (by intro k v n h; cases h), (by intro e h; cases h)⟩
  have step : ∀ f : SectionReader (LogData α), (f = aoReader ∨ f = coordReader ∨ f = alphaReader ∨ f = betaReader ∨ f = overlapReader) →
      ∀ fuel r, LogInv r.data → Safe (fun r => LogInv r.data) (f fuel r) := by
    rintro f (rfl | rfl | rfl | rfl | rfl) fuel r h
    · exact aoAtoms_inv _ _ _ _ h
    · refine (coordLoop_safe _ _ _ _ _ _ ⟨[], rfl, rfl, rfl⟩).bind fun x hx => .ok ⟨h.S, ?_, h.homo, h.oe, h.both, h.level, h.orb⟩
      obtain ⟨rows, e1, e2, e3⟩ := hx
      exact .inr ⟨rows, by rw [← e1, ← e2, ← e3]⟩
    · exact readOrbEnergies_inv (.inl rfl) _ _ h
    · exact readOrbEnergies_inv (.inr rfl) _ _ h
    · exact overlapReader_inv _ _ h
  intro tag ht _
  simp only [logSections, List.map_cons, List.map_nil, List.mem_cons, List.not_mem_nil, or_false] at ht
  rcases ht with rfl | rfl | rfl | rfl | rfl
  · exact ⟨_, rfl, step _ (.inl rfl)⟩
  · exact ⟨_, rfl, step _ (.inr (.inl rfl))⟩
  · exact ⟨_, rfl, step _ (.inr (.inr (.inl rfl)))⟩
  · exact ⟨_, rfl, step _ (.inr (.inr (.inr (.inl rfl))))⟩
  · exact ⟨_, rfl, step _ (.inr (.inr (.inr (.inr rfl))))⟩

/-- C115 (overlap): whatever the log file, the overlap matrix read from it, if any, is a square symmetric matrix with a value at every place. -/
theorem C115_overlap (files : Str → Option Str) (fuel : Nat) (name : Str) {d : LogData α} (h : readLog files fuel name = .ok d)
    {S : Mat α} (hS : d.getOverlapMatrix = .ok S) :
    1 ≤ S.rows ∧ S.cols = S.rows ∧ S.shel = 1 ∧
      (∀ i j, 1 ≤ i → i ≤ S.rows → 1 ≤ j → j ≤ S.rows → ∃ v, S.getElem2 i j = .ok v ∧ S.getElem2 j i = .ok v) := by
  have hd := (readLog_inv files fuel name).2 d h
  unfold LogData.getOverlapMatrix at hS
  split at hS
  · rename_i m hm
    cases hS
    obtain ⟨n, hn, f, hf, hs⟩ := hd.S _ hm
    rw [hf.rows, hf.cols, hf.shel]
    refine ⟨hn, rfl, rfl, fun i j a b c e => ⟨f i j, ?_, ?_⟩⟩
    · rw [hf.get2_eq (by omega), if_pos ⟨a, b, c, e⟩]
    · rw [hf.get2_eq (by omega), if_pos ⟨c, e, a, b⟩, hs]
  · cases hS

/-- C115 (energies): whatever the log file, orbital energies and a HOMO level are held for the spins Alpha and Beta only, always both or
neither, and the HOMO level is at most the number of energies. -/
theorem C115_energies (files : Str → Option Str) (fuel : Nat) (name : Str) {d : LogData α} (h : readLog files fuel name = .ok d) (spin : Str) :
    (d.getOE spin = .throw .outOfRange ∧ d.getHOMOLevel spin = .throw .outOfRange) ∨
      ((spin = (lit "Alpha") ∨ spin = (lit "Beta")) ∧ ∃ (es : List α) (n : Nat), d.getOE spin = .ok es ∧ d.getHOMOLevel spin = .ok (n : Int) ∧
        n ≤ es.length) := by
  have hd := (readLog_inv files fuel name).2 d h
  unfold LogData.getOE LogData.getHOMOLevel
  have hb := hd.both spin
  cases ho : d.oe.get spin with
  | none =>
    rw [ho] at hb
    cases hh : d.homo.get spin with
    | none => exact .inl ⟨rfl, rfl⟩
    | some n => rw [hh] at hb; cases hb
  | some v =>
    rw [ho] at hb
    cases hh : d.homo.get spin with
    | none => rw [hh] at hb; cases hb
    | some n =>
      obtain ⟨l1, l2⟩ := hd.level _ _ _ ho hh
      exact .inr ⟨hd.oe.key ho, v, n.toNat, rfl, by simp only; congr 1; omega, by omega⟩

/-- C115 (atoms): whatever the log file, the coordinates held are none or three lists of the same length, and no atom has zero basis
functions. -/
theorem C115_atoms (files : Str → Option Str) (fuel : Nat) (name : Str) {d : LogData α} (h : readLog files fuel name = .ok d) :
    (d.getCoords = [] ∨ ∃ X Y Z, d.getCoords = [X, Y, Z] ∧ X.length = Y.length ∧ Y.length = Z.length) ∧
      ∀ c ∈ d.getBasisFuncCount, 1 ≤ c := by
  have hd := (readLog_inv files fuel name).2 d h
  constructor
  · rcases hd.xyz with h | ⟨rows, h⟩
    · exact .inl h
    · exact .inr ⟨_, _, _, h, by simp, by simp⟩
  · intro c hc
    unfold LogData.getBasisFuncCount at hc
    obtain ⟨e, he, rfl⟩ := List.mem_map.1 hc
    have := List.length_pos_iff.2 (hd.orb e he)
    omega

omit [Zero α]

theorem readPun_inv (fs : Str → Option Str) (fuel : Nat) (name : Str) : Safe Spins (readPun fs fuel name : Res (PunData α)) := by
  unfold readPun
  refine Safe.bind (P := fun _ => True) ?_ fun _ _ => ?_
  · unfold punReaderNew
    exact (fileExt_safe _).bind fun e _ => .ite (fun _ => .throw _) (fun _ => checkSections_safe _)
  refine read_safe _ Spins ?_ fs name fuel _ (.inl rfl)
  have step : ∀ k, (k = (lit "Alpha") ∨ k = (lit "Beta")) → ∀ fuel (r : FR (PunData α)), Spins r.data → Safe (fun r => Spins r.data) (readCoef k fuel r) := by
    intro k hk fuel r h
    unfold readCoef
    exact (coefLoop_safe _ _ _ _ _ _).bind fun x _ => (ofVecVec_safe _).bind fun m hm => .ok (h.set hk _)
  intro tag ht _
  simp only [punSections, List.map_cons, List.map_nil, List.mem_cons, List.not_mem_nil, or_false] at ht
  rcases ht with rfl | rfl
  · exact ⟨_, rfl, step _ (.inl rfl)⟩
  · exact ⟨_, rfl, step _ (.inr rfl)⟩

/-- C115 (coefficients): whatever the pun file, coefficient matrices are held for the spins Alpha and Beta only, each has at least one row
and a value at every place, and the file counts as one of a restricted calculation exactly when one of the two is held. -/
theorem C115_coefs (files : Str → Option Str) (fuel : Nat) (name : Str) {d : PunData α} (h : readPun files fuel name = .ok d) :
    (∀ spin m, d.getCoefsMatrix spin = .ok m → (spin = (lit "Alpha") ∨ spin = (lit "Beta")) ∧ 1 ≤ m.rows ∧ 0 ≤ m.cols ∧ m.shel = 1 ∧
      ∀ i j, 1 ≤ i → i ≤ m.rows → 1 ≤ j → j ≤ m.cols → ∃ v, m.getElem2 i j = .ok v) ∧
    (d.restrictedShell = true ↔ ¬ ((∃ m, d.getCoefsMatrix (lit "Alpha") = .ok m) ↔ ∃ m, d.getCoefsMatrix (lit "Beta") = .ok m)) := by
  have hd := (readPun_inv files fuel name).2 d h
  have hg := (readPun_safe files fuel name).2 d h
  constructor
  · intro spin m hm
    unfold PunData.getCoefsMatrix at hm
    split at hm
    · rename_i m' e
      cases hm
      obtain ⟨hi, hr, hs⟩ := hg _ _ e
      refine ⟨hd.key e, hr, ?_, hs, ?_⟩
      · exact hi.cols
      · intro i j a b c e
        obtain ⟨f, hf⟩ := Sized.isMat (r := m.rows) (c := m.cols) ⟨⟨hi, hr, by omega, by omega⟩, rfl, rfl, hs⟩
        rw [hf.get2_eq (by omega), if_pos ⟨a, b, c, e⟩]
        exact ⟨_, rfl⟩
    · cases hm
  · have key : ∀ k, (∃ m, d.getCoefsMatrix k = .ok m) ↔ (d.get k).isSome = true := by
      intro k
      unfold PunData.getCoefsMatrix
      cases d.get k <;> simp
    rw [key, key]
    unfold PunData.restrictedShell
    have := hd.one
    cases h1 : (d.get (lit "Alpha")).isSome <;> cases h2 : (d.get (lit "Beta")).isSome <;> simp [h1, h2] at this ⊢ <;> exact this

/-! ### files that meet the hypotheses: an overlap table whose rows are too long and too short, and a pun file with one orbital -/

/-- The texts. -/
def oddLog : Str :=
  (lit " *** Overlap ***\n 1 2\n 1 1.0D+00 7.0D+00\n 2 3.0D+00\n 0\n Alpha  occ. eigenvalues --  -1.0 -2.0\n Alpha virt. eigenvalues --  5.0\n")
def oddPun : Str := (lit " 1 Alpha MO OE\n 1.00000000D+00 5.00000000D+00\n 2 Alpha MO OE\n 7.00000000D+00\n 9.00000000D+00\n 1 Beta MO OE\n")

example : (match (readLog (holding (lit "a.log") oddLog) 100 (lit "a.log") : Res (LogData Int)) with
    | .ok d =>
      match d.getOverlapMatrix with
      | .ok S => decide (S.rows = 2 ∧ S.getElem2 1 2 = .ok 3 ∧ S.getElem2 2 1 = .ok 3 ∧ d.getHOMOLevel (lit "Alpha") = .ok 2 ∧ d.getHOMOLevel (lit "Beta") = .throw .outOfRange)
      | _ => false
    | _ => false) = true := by decide +kernel

example : (match (readPun (holding (lit "a.pun") oddPun) 100 (lit "a.pun") : Res (PunData Int)) with
    | .ok d =>
      match d.getCoefsMatrix (lit "Alpha") with
      | .ok m => decide (m.rows = 2 ∧ m.cols = 2 ∧ m.getElem2 2 2 = .ok 9 ∧ d.restrictedShell = true)
      | _ => false
    | _ => false) = true := by decide +kernel

end Readers
end Verif
