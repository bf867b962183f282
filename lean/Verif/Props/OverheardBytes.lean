import Verif.Props.Overheard
import Verif.Props.TallyBytes

/-! # C142 on bytes: what applications are handed -/

namespace Wamp.Spec.Overheard
open Wamp.Spec.Net Wamp.Spec.Ses Wamp.Spec.Tally

variable {W : Type} {D : Value → Prop} {cs : Int → Codec W}

/-- On bytes: the contents of what an application is handed were meant for it, whatever all clients send (of values the serializers
restore). `arriving` is what was sent as it arrives: a message without positional but with keyword arguments has an empty list of the
former then. -/
theorem C142_handed (hD : DataSet D) (hc : ∀ s, Net.Restores (cs s) D) (sched : List Act) (hs : SendsData D sched)
    (hl : sched.length ≤ 2 ^ 53) (s : Int) (kb : BConn W) (hk : (brun cs sched).conns s = some kb) (m : Message)
    (hm : m ∈ handed (cs s) kb.calls) : MeantFor (sched.map arriving) s m := by
  obtain ⟨k, h1, h2⟩ := handed_bytes hD hc sched hs hl s kb hk
  exact C142_nobody_overhears objects _ (by rw [List.length_map]; exact hl) s k h1 m (h2.subset hm)

/-- The example on bytes, both clients receiving all they are sent -/
example : [1, 2].map (fun s => ((brun (fun _ => objects) (whispered ++ [.deliver 1, .deliver 1, .deliver 2, .deliver 2])).conns s).map fun kb =>
    (handed objects kb.calls).map fun | .event e => e.args | _ => none) =
      [some [none, some [.str "secret"]], some [none, some [.str "news"]]] := by decide +kernel

end Wamp.Spec.Overheard
