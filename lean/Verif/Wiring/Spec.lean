import Verif.Wiring.Model
import Verif.Flow.Spec

/-!
# Specification: signals in a running composite
-/

namespace Visr.Wiring
open Visr Visr.Flow

/-- The signals `v component port` (one per channel) are those of a running composite with the audio connections `conns`:
every port has as many signals as its width, and connected channels carry the same signal. The composite's own ports are
those of the component `""` or `"this"`. -/
structure Carries {S : Type} (site : Site) (conns : List AConn) (v : String → String → List S) : Prop where
  width : ∀ c p port, site.findAudio c p = some port → (v c p).length = port.width
  wires : ∀ sc sp s i rc rp r j, site.findAudio sc sp = some s → site.findAudio rc rp = some r →
    ((s.id, i), (r.id, j)) ∈ pairs conns → (v sc sp)[i]? = (v rc rp)[j]?

/-- The parameter values `p component port` of a running composite with the parameter connections `pconns`: connected
ports have the same value. -/
def Controlled {V : Type} (site : Site) (pconns : List PConn) (p : String → String → V) : Prop :=
  ∀ sc sp s rc rp r, site.findParam sc sp = some s → site.findParam rc rp = some r → ⟨s.id, r.id⟩ ∈ pconns →
    p rc rp = p sc sp

/-- Channelwise sum. -/
def plus {S : Type} [Add S] (a b : List S) : List S := List.zipWith (· + ·) a b

end Visr.Wiring
