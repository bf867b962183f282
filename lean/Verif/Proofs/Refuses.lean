import Verif.Proofs.MsgPack
import Verif.Proofs.Cbor
import Verif.Proofs.Json

/-! # What the serializers write, fits -/

namespace Wamp
open Spec

mutual
theorem Json.fits_writable : ∀ v, Keyed .json v → Json.writable v = .ok () → Fits jsonLimits v
  | .none, _, _ => by rw [Fits]; trivial
  | .bool _, _, _ => by rw [Fits]; trivial
  | .int _, _, _ => by rw [Fits]; trivial
  | .float _, hk, _ => by rw [Keyed] at hk; rw [Fits]; exact hk (by decide)
  | .str _, _, _ => by rw [Fits]; trivial
  | .bytes _, _, h => by rw [Json.writable] at h; cases h; all_goals simp
  | .list l, hk, h => by
    rw [Keyed] at hk; rw [Json.writable] at h; rw [Fits]
    exact ⟨trivial, Json.fits_writableList l hk.2 h⟩
  | .dict d, hk, h => by
    rw [Keyed] at hk; rw [Json.writable] at h; rw [Fits]
    exact ⟨trivial, hk.2.1, Json.fits_writableDict d hk.2.2 h⟩
  | .obj .., _, h => by rw [Json.writable] at h; cases h; all_goals simp
theorem Json.fits_writableList : ∀ l, KeyedList .json l → Json.writableList l = .ok () → FitsList jsonLimits l
  | [], _, _ => by rw [FitsList]; trivial
  | v :: l, hk, h => by
    rw [KeyedList] at hk; rw [Json.writableList] at h; rw [FitsList]
    cases hv : Json.writable v with
    | error e => rw [hv] at h; cases h
    | ok u => rw [hv] at h; exact ⟨Json.fits_writable v hk.1 hv, Json.fits_writableList l hk.2 h⟩
theorem Json.fits_writableDict : ∀ d, KeyedDict .json d → Json.writableDict d = .ok () → FitsDict jsonLimits d
  | [], _, _ => by rw [FitsDict]; trivial
  | (k, v) :: d, hk, h => by
    rw [KeyedDict] at hk; rw [Json.writableDict] at h; rw [FitsDict]
    obtain ⟨⟨s, rfl, hs⟩, h2, h3⟩ := hk
    cases hv : Json.writable v with
    | error e => rw [hv] at h; cases h
    | ok u => rw [hv] at h; exact ⟨⟨s, rfl, trivial⟩, Json.fits_writable v h2 hv, Json.fits_writableDict d h3 h⟩
end

mutual
theorem MsgPack.fits_packable : ∀ v, Keyed .msgpack v → MsgPack.packable v = .ok () → Fits msgpackLimits v
  | .none, _, _ => by rw [Fits]; trivial
  | .bool _, _, _ => by rw [Fits]; trivial
  | .int _, _, h => by
    rw [MsgPack.packable] at h; rw [Fits]
    split at h
    · assumption
    · cases h
  | .float _, _, _ => by rw [Fits]; trivial
  | .str _, _, h => by
    rw [MsgPack.packable, utf8_length] at h; rw [Fits]
    split at h
    · assumption
    · cases h
  | .bytes _, _, h => by
    rw [MsgPack.packable] at h; rw [Fits]
    split at h
    · exact ⟨trivial, by assumption⟩
    · cases h
  | .list l, hk, h => by
    rw [Keyed] at hk; rw [MsgPack.packable] at h; rw [Fits]
    split at h
    · exact ⟨by assumption, MsgPack.fits_packableList l hk.2 h⟩
    · cases h
  | .dict d, hk, h => by
    rw [Keyed] at hk; rw [MsgPack.packable] at h; rw [Fits]
    split at h
    · exact ⟨by assumption, hk.2.1, MsgPack.fits_packableDict d hk.2.2 h⟩
    · cases h
  | .obj .., _, h => by rw [MsgPack.packable] at h; cases h
theorem MsgPack.fits_packableList : ∀ l, KeyedList .msgpack l → MsgPack.packableList l = .ok () → FitsList msgpackLimits l
  | [], _, _ => by rw [FitsList]; trivial
  | v :: l, hk, h => by
    rw [KeyedList] at hk; rw [MsgPack.packableList] at h; rw [FitsList]
    cases hv : MsgPack.packable v with
    | error e => rw [hv] at h; cases h
    | ok u => rw [hv] at h; exact ⟨MsgPack.fits_packable v hk.1 hv, MsgPack.fits_packableList l hk.2 h⟩
theorem MsgPack.fits_packableDict : ∀ d, KeyedDict .msgpack d → MsgPack.packableDict d = .ok () → FitsDict msgpackLimits d
  | [], _, _ => by rw [FitsDict]; trivial
  | (k, v) :: d, hk, h => by
    rw [KeyedDict] at hk; rw [MsgPack.packableDict] at h; rw [FitsDict]
    obtain ⟨⟨s, rfl, hs⟩, h2, h3⟩ := hk
    cases hk' : MsgPack.packable (.str s) with
    | error e => rw [hk'] at h; cases h
    | ok u =>
      rw [hk'] at h
      rw [MsgPack.packable, utf8_length] at hk'
      cases hv : MsgPack.packable v with
      | error e => rw [hv] at h; cases h
      | ok u =>
        rw [hv] at h
        refine ⟨⟨s, rfl, ?_⟩, MsgPack.fits_packable v h2 hv, MsgPack.fits_packableDict d h3 h⟩
        split at hk'
        · assumption
        · cases hk'
end

mutual
theorem Cbor.fits_keyed : ∀ v, Keyed .cbor v → Fits cborLimits v
  | .none, _ => by rw [Fits]; trivial
  | .bool _, _ => by rw [Fits]; trivial
  | .int _, h => by rw [Keyed] at h; rw [Fits]; exact h
  | .float _, h => by rw [Keyed] at h; rw [Fits]; exact h (by decide)
  | .str _, h => by rw [Keyed] at h; rw [Fits]; exact h
  | .bytes _, h => by rw [Keyed] at h; rw [Fits]; exact ⟨trivial, h⟩
  | .list l, h => by rw [Keyed] at h; rw [Fits]; exact ⟨h.1, Cbor.fits_keyedList l h.2⟩
  | .dict d, h => by rw [Keyed] at h; rw [Fits]; exact ⟨h.1, h.2.1, Cbor.fits_keyedDict d h.2.2⟩
  | .obj .., h => by rw [Keyed] at h; exact absurd rfl h
theorem Cbor.fits_keyedList : ∀ l, KeyedList .cbor l → FitsList cborLimits l
  | [], _ => by rw [FitsList]; trivial
  | v :: l, h => by rw [KeyedList] at h; rw [FitsList]; exact ⟨Cbor.fits_keyed v h.1, Cbor.fits_keyedList l h.2⟩
theorem Cbor.fits_keyedDict : ∀ d, KeyedDict .cbor d → FitsDict cborLimits d
  | [], _ => by rw [FitsDict]; trivial
  | (k, v) :: d, h => by
    rw [KeyedDict] at h; rw [FitsDict]; exact ⟨h.1, Cbor.fits_keyed v h.2.1, Cbor.fits_keyedDict d h.2.2⟩
end

end Wamp
