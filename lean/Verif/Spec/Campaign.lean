import Verif.Spec.History
import Verif.Spec.Api
/-!
# Specification vocabulary: airdrop campaigns
-/

namespace Solsab.Spec

/-- The history contains a claim of `index` from the campaign at `x` (by anybody, for any amount). -/
def ClaimedIn (log : List LogEntry) (x : Addr) (index : Nat) : Prop :=
  ∃ e ∈ log, ∃ amount claimer receipt fee recipient, e.event = .claim amount x claimer receipt fee index recipient

/-- The clock is inside the claim window `[start, expiration)`; expiration 0 means "never". -/
def InWindow (now start expiration : Nat) : Prop := start ≤ now ∧ (expiration = 0 ∨ now < expiration)

/-- The campaign has an expiration and it has been reached. -/
def Expired (now expiration : Nat) : Prop := expiration ≠ 0 ∧ expiration ≤ now

instance (now expiration : Nat) : Decidable (Expired now expiration) := inferInstanceAs (Decidable (_ ∧ _))

/-- Seven days. -/
def sevenDays : Nat := 604800

/-- A clawback is blocked: there was a claim, more than seven days have passed since the first one, and the
campaign has not expired. -/
def ClawbackBlocked (log : List LogEntry) (x : Addr) (now expiration : Nat) : Prop :=
  ∃ t, firstClaim x log = some t ∧ t + sevenDays < now ∧ ¬ Expired now expiration

/-- Reachable from an unused chain whose unix clock is positive (as it has been since 1970). -/
def ReachablePos (rt : Runtime) (w : World) : Prop := ∃ w₀, Genesis w₀ ∧ 0 < w₀.clock ∧ Steps rt w₀ w

theorem ReachablePos.reachable {rt : Runtime} {w : World} : ReachablePos rt w → Reachable rt w
  | ⟨w₀, h1, _, h3⟩ => ⟨w₀, h1, h3⟩

/-- Everything a successful `create_campaign` does to the ledger. -/
structure CampaignEffect (rt : Runtime) (w w' : World) (c : Merkle.CreateCampaignAccts) (root : Bytes32)
    (st ex : Nat) (name cid : List UInt8) (agg cnt : Nat) (md : MintData) : Prop where
  mint : w.bank.mints c.airdropTokenMint = some md
  signed : c.creator.canSign = true
  addr : c.campaign = .campaign c.creator root st ex name c.airdropTokenMint
  fresh : w.mi.campaigns c.campaign = none
  /-- stores exactly the arguments -/
  campaigns : w'.mi.campaigns = upd w.mi.campaigns c.campaign (some
    { airdropTokenMint := c.airdropTokenMint, bump := rt.bump c.campaign, campaignStartTime := st,
      creator := c.creator, expirationTime := ex, firstClaimTime := 0, ipfsCid := cid, merkleRoot := root,
      name := name })
  /-- a new, empty vault owned by the campaign (frozen if the token's accounts start frozen) -/
  vaultFresh : w.bank.tokens (.ata c.campaign md.program c.airdropTokenMint) = none
  vault : w'.bank.tokens (.ata c.campaign md.program c.airdropTokenMint) =
    some ⟨md.program, c.airdropTokenMint, c.campaign, 0, md.startsFrozen⟩
  tokens : ∀ a, a ≠ .ata c.campaign md.program c.airdropTokenMint → w'.bank.tokens a = w.bank.tokens a
  mints : w'.bank.mints = w.bank.mints
  receipts : w'.mi.receipts = w.mi.receipts
  treasury : w'.mi.treasury = w.mi.treasury
  lockup : w'.lk = w.lk
  clock : w'.clock = w.clock
  metas : w'.metas = w.metas
  lamports : ∀ a, a ≠ c.creator → w.lamports a ≤ w'.lamports a
  log : w'.log = ⟨w.now, .createCampaign agg c.campaign name st c.creator ex cid root cnt md.decimals
    c.airdropTokenMint⟩ :: w.log

end Solsab.Spec
