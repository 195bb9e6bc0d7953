import Verif.Spec.Accesses
import Verif.Spec.Timeline

/-!
# Precharges of closed banks
-/

namespace DRAMPower.Spec

/-- Is it a precharge? -/
def closes : CmdType → Bool
  | .PRE | .PREA | .PRESB => true
  | _ => false

/-- Does the command make its banks active? -/
def opens : CmdType → Bool
  | .ACT | .REFA | .REFB | .REFP2B | .REFDB | .REFSB | .SREFEN => true
  | _ => false

/-- Is a bank closed after the commands `h`: since it was precharged last (or since the beginning) it has been neither activated nor
refreshed. -/
def rests (ms : MemSpec) (rank bank : Nat) (h : List Cmd) : Bool :=
  h.foldl (fun s c => if c.rank = rank ∧ targets ms c bank = true then (closes c.type || (s && !opens c.type)) else s) true

/-- Every command of `l` that is not kept precharges banks that are closed already. `h`: the commands before `l`. -/
def Needless (ms : MemSpec) (h : List Cmd) : List (Cmd × Bool) → Prop
  | [] => True
  | (c, k) :: l => (k = false → closes c.type = true ∧ ∀ b < ms.numberOfBanks, targets ms c b = true → rests ms c.rank b h = true) ∧
      Needless ms (h ++ [c]) l

def Needless.dec (ms : MemSpec) : ∀ (l : List (Cmd × Bool)) (h : List Cmd), Decidable (Needless ms h l)
  | [], _ => .isTrue trivial
  | (c, k) :: l, h => @instDecidableAnd _ _ inferInstance (Needless.dec ms l (h ++ [c]))

instance (ms : MemSpec) (h : List Cmd) (l : List (Cmd × Bool)) : Decidable (Needless ms h l) := Needless.dec ms l h

end DRAMPower.Spec
