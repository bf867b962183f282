import Verif.Spec.Formats
import Verif.Proofs.Bytes

/-! # Values that fit -/

namespace Wamp.Spec

theorem fitsList_iff {L : Limits} : ∀ l, FitsList L l ↔ ∀ v ∈ l, Fits L v
  | [] => by simp [FitsList]
  | v :: l => by simp [FitsList, fitsList_iff l]

theorem fitsDict_iff {L : Limits} : ∀ d : PyDict, FitsDict L d ↔
    ∀ kv ∈ d, (∃ s : String, kv.1 = .str s ∧ L.size s.utf8ByteSize) ∧ Fits L kv.2
  | [] => by simp [FitsDict]
  | (k, v) :: d => by simp [FitsDict, fitsDict_iff d, and_assoc]

/-- The first limits are no wider than the second. -/
structure Limits.Le (L M : Limits) : Prop where
  int : ∀ n, L.int n → M.int n
  float : ∀ f, L.float f → M.float f
  bytes : L.bytes → M.bytes
  size : ∀ n, L.size n → M.size n

mutual
theorem Fits.mono {L M : Limits} (h : L.Le M) : ∀ v, Fits L v → Fits M v
  | .none, _ => by rw [Fits]; trivial
  | .bool _, _ => by rw [Fits]; trivial
  | .int n, hv => by rw [Fits] at hv ⊢; exact h.int _ hv
  | .float n, hv => by rw [Fits] at hv ⊢; exact h.float _ hv
  | .str s, hv => by rw [Fits] at hv ⊢; exact h.size _ hv
  | .bytes s, hv => by rw [Fits] at hv ⊢; exact ⟨h.bytes hv.1, h.size _ hv.2⟩
  | .list l, hv => by rw [Fits] at hv ⊢; exact ⟨h.size _ hv.1, FitsList.mono h l hv.2⟩
  | .dict d, hv => by rw [Fits] at hv ⊢; exact ⟨h.size _ hv.1, hv.2.1, FitsDict.mono h d hv.2.2⟩
  | .obj .., hv => by rw [Fits] at hv; exact hv.elim
theorem FitsList.mono {L M : Limits} (h : L.Le M) : ∀ l, FitsList L l → FitsList M l
  | [], _ => by rw [FitsList]; trivial
  | v :: l, hv => by rw [FitsList] at hv ⊢; exact ⟨Fits.mono h v hv.1, FitsList.mono h l hv.2⟩
theorem FitsDict.mono {L M : Limits} (h : L.Le M) : ∀ d, FitsDict L d → FitsDict M d
  | [], _ => by rw [FitsDict]; trivial
  | (k, v) :: d, hv => by
    rw [FitsDict] at hv ⊢
    obtain ⟨⟨s, e, hs⟩, h2, h3⟩ := hv
    exact ⟨⟨s, e, h.size _ hs⟩, Fits.mono h v h2, FitsDict.mono h d h3⟩
end

end Wamp.Spec
