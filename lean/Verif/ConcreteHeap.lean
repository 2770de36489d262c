import Verif.Props.HeapJob
import Verif.ConcreteJob
/-
C129 and C130 on concrete cases. No general theorem uses this file.
-/
namespace Verif.Heap
open Strings Readers QC Mat Log Pun Job Args Sample

/-- The sample job of `Verif.ConcreteJob`, carried out on objects that share storage: the same number. -/
example (D : Type) [Args.Dbl D] : ∃ fuel r st, calcJHeap D (id : Rat → Rat) files fuel
      [(lit "-p_P"), (lit "P.pun"), (lit "-p_1"), (lit "1.pun"), (lit "-p_2"), (lit "2.pun")] = .ok (r, st) ∧
    r.2.jeff = -282251 / 85696 ∧ Sound st ∧ deleted st = 4 := by
  obtain ⟨-, N, h⟩ := sample_job (D := D)
  have h := h N (Nat.le_refl N)
  simp only at h
  unfold calcJMain at h
  rw [← C129_same] at h
  obtain ⟨r, hr, e⟩ := Res.bind_eq_ok.1 h
  obtain ⟨p, hp, e2⟩ := Res.bind_eq_ok.1 hr
  obtain ⟨r', st⟩ := p
  have e2 := Res.ok.inj e2
  have e := Res.ok.inj e
  simp only at e2
  subst e2
  exact ⟨N, r', st, hp, e, C129_sound _ _ _ _ _ _ _ hp⟩

/-- Five 1×1 matrices; the two monomers' are two names of one, and so are the dimer's coefficients and the overlap. -/
def shared : St Rat :=
  ⟨[⟨1, 1, 1, 0⟩, ⟨1, 1, 1, 0⟩, ⟨1, 1, 1, 1⟩, ⟨1, 1, 1, 1⟩, ⟨1, 1, 1, 2⟩], [.live [some 3], .live [some 2], .live [some 5]]⟩

/-- A complex on them. -/
def someComplex : Complex := ⟨0, 1, 2, (1, 1), (1, 1), 3, 4, false, true⟩

/-- The same complex with matrices of its own. -/
def someValues : TransferComplex Rat :=
  ⟨⟨1, 1, 1, [some 3]⟩, ⟨1, 1, 1, [some 3]⟩, ⟨1, 1, 1, [some 2]⟩, (1, 1), (1, 1), ⟨1, 1, 1, [some 2]⟩, ⟨1, 1, 1, [some 5]⟩, false, true⟩

theorem shared_sound : Sound shared := by
  intro o ho
  simp only [shared, List.mem_cons, List.not_mem_nil, or_false] at ho
  rcases ho with rfl | rfl | rfl | rfl | rfl
  · exact ⟨_, rfl⟩
  · exact ⟨_, rfl⟩
  · exact ⟨_, rfl⟩
  · exact ⟨_, rfl⟩
  · exact ⟨_, rfl⟩

theorem shared_complex : IsComplex shared someComplex someValues :=
  ⟨⟨_, rfl, rfl⟩, ⟨_, rfl, rfl⟩, ⟨_, rfl, rfl⟩, ⟨_, rfl, rfl⟩, ⟨_, rfl, rfl⟩, rfl, rfl, rfl, rfl⟩

/-- The highest occupied orbital of both monomers. -/
def homos : (Str → Option Str) × (Str → Option Int) := (fun _ => some (lit "HOMO"), fun _ => some 0)

example : (someValues.calcJReport homos.1 homos.2).isOk = true := by decide +kernel

/-- Three calls after another succeed, with three times the same answer, and leave 72 blocks of storage. -/
example : ∃ r st', [homos, homos, homos].mapM (fun c => (calcJ someComplex c.1 c.2 : HM Rat (Report Rat))) shared = .ok ([r, r, r], st') ∧
    Keeps shared st' ∧ allocated st' - deleted st' = allocated shared + 72 := by
  obtain ⟨r, hr⟩ : ∃ r, someValues.calcJReport homos.1 homos.2 = .ok r := by
    cases hx : someValues.calcJReport homos.1 homos.2 with
    | ok r => exact ⟨r, rfl⟩
    | _ =>
      have : (someValues.calcJReport homos.1 homos.2).isOk = true := by decide +kernel
      rw [hx] at this
      cases this
  obtain ⟨st', e, -, hk, ha, hd⟩ := (C130_again shared_sound shared_complex [homos, homos, homos]).ok (r := [r, r, r])
    (by simp only [List.mapM_cons, List.mapM_nil, hr, Res.ok_bind, pure_bind]; rfl)
  refine ⟨r, st', e, hk, ?_⟩
  rw [ha, hd]
  rfl

end Verif.Heap
