import Verif.Model.Basic

namespace QpOASES

theorem forUp_inv {σ : Type} {f : Nat → σ → Res σ} (P : Nat → σ → Prop) :
    ∀ (n lo : Nat) (s : σ), P lo s →
      (∀ i s, lo ≤ i → i < lo + n → P i s → ∃ s', f i s = .ok s' ∧ P (i+1) s') →
      ∃ s', forUp f lo n s = .ok s' ∧ P (lo+n) s' := by
  intro n
  induction n with
  | zero => intro lo s h _; exact ⟨s, rfl, h⟩
  | succ n ih =>
    intro lo s h step
    obtain ⟨s1, h1, p1⟩ := step lo s (Nat.le_refl _) (by omega) h
    obtain ⟨s2, h2, p2⟩ := ih (lo+1) s1 p1 (fun i s hi hl hp => step i s (by omega) (by omega) hp)
    refine ⟨s2, ?_, ?_⟩
    · simp [forUp, h1, h2]
    · have : lo + (n+1) = lo + 1 + n := by omega
      rw [this]; exact p2

theorem forDown_inv {σ : Type} {f : Nat → σ → Res σ} (P : Nat → σ → Prop) :
    ∀ (n lo : Nat) (s : σ), P (lo+n) s →
      (∀ i s, lo ≤ i → i < lo + n → P (i+1) s → ∃ s', f i s = .ok s' ∧ P i s') →
      ∃ s', forDown f lo n s = .ok s' ∧ P lo s' := by
  intro n
  induction n with
  | zero => intro lo s h _; exact ⟨s, rfl, h⟩
  | succ n ih =>
    intro lo s h step
    obtain ⟨s1, h1, p1⟩ := step (lo+n) s (by omega) (by omega) h
    obtain ⟨s2, h2, p2⟩ := ih lo s1 p1 (fun i s hi hl hp => step i s (by omega) (by omega) hp)
    exact ⟨s2, by simp [forDown, h1, h2], p2⟩

namespace Mem
variable {α : Type}

theorem get_ok {a : Mem α} {i : Nat} {v : α} (hi : i < a.size) (h : a.cell i = some v) :
    a.get (i : Int) = .ok v := by
  simp [get, hi, h]

theorem get_ok' {a : Mem α} {i : Int} {v : α} (h0 : 0 ≤ i) (hi : i.toNat < a.size)
    (h : a.cell i.toNat = some v) : a.get i = .ok v := by
  have : i < (a.size : Int) := by omega
  simp [get, h0, this, h]

theorem set_ok (a : Mem α) {i : Nat} (v : α) (hi : i < a.size) :
    a.set (i : Int) v = .ok ⟨a.size, fun k => if k = i then some v else a.cell k⟩ := by
  simp [set, hi]

theorem set_ok' (a : Mem α) {i : Int} (v : α) (h0 : 0 ≤ i) (hi : i.toNat < a.size) :
    a.set i v = .ok ⟨a.size, fun k => if k = i.toNat then some v else a.cell k⟩ := by
  have : i < (a.size : Int) := by omega
  simp [set, h0, this]

theorem get_neg (a : Mem α) {i : Int} (h : i < 0) : a.get i = .ub .outOfBounds := by
  have : ¬ (0 ≤ i ∧ i < a.size) := by omega
  simp [get, this]

end Mem
end QpOASES
