import Verif.Spec.Accounts
import Verif.Spec.Airdrop
import Verif.Spec.Campaign
import Verif.Merkle.Builder
/-!
# Specification vocabulary: delivering an airdrop

What somebody who claims on behalf of a list of recipients (anybody may) has to provide, and what the result is.
-/

namespace Solsab.Spec

open Merkle

/-- One allocation of a campaign, with its proof. -/
structure Grant where
  index : UInt32
  recipient : Addr
  amount : UInt64
  proof : List Bytes32

/-- The claim of a grant of campaign `x` in token `m` (token program `tp`) signed by `p`; `tr` is the configuration of
the program. -/
def Grant.claim (tr : Treasury) (p x m : Addr) (tp : TokenProgram) (g : Grant) : Ix :=
  .merkle (.claim
    { claimer := p, recipient := g.recipient, recipientAta := .ata g.recipient tp m, treasury := .treasury .merkle,
      airdropTokenMint := m, campaign := x, campaignAta := .ata x tp m, claimReceipt := .claimReceipt x g.index.toNat,
      airdropTokenProgram := tp, chainlinkProgram := tr.chainlinkProgram, chainlinkSolUsdFeed := tr.chainlinkSolUsdFeed }
    g.index g.amount g.proof)

def Grant.value (g : Grant) : Nat := g.amount.toNat

/-- The grant is open: listed under the campaign's root and not claimed yet. -/
structure Grant.Open (rt : Runtime) (w : World) (x : Addr) (cd : Campaign) (g : Grant) : Prop where
  unclaimed : hasClaimedView w x g.index.toNat = .ok false
  listed : Airdrop.Proves rt cd.merkleRoot g.index.toNat g.recipient g.amount.toNat g.proof

/-- The recipient can be paid: their associated token account does not exist yet, or is theirs and not frozen, and does
not require memos. -/
structure Grant.Receivable (w : World) (x m : Addr) (tp : TokenProgram) (g : Grant) : Prop where
  notCampaign : g.recipient ≠ x
  account : ∀ t, w.bank.tokens (.ata g.recipient tp m) = some t → t.owner = g.recipient ∧ t.frozen = false
  noMemo : (w.settings (.ata g.recipient tp m)).memoRequired = false

/-- The rent of a recipient's token account and of a claim receipt. -/
def grantRent (rt : Runtime) (m : Addr) (tp : TokenProgram) : Nat :=
  max (rt.rent (World.tokenSpace rt m tp)) 1 + max (rt.rent 8) 1

/-- `p` can deliver the grants now: the claim window of the campaign is open, its vault holds the sum of the grants in a
token that can be transferred without a fee and whose new accounts are not frozen, and `p` signs and has the rent. -/
structure Deliverable (rt : Runtime) (w : World) (p x : Addr) (tr : Treasury) (cd : Campaign) (md : MintData)
    (grants : List Grant) : Prop where
  campaign : campaignView w x = .ok cd
  treasury : w.mi.treasury = some tr
  mint : w.bank.mints cd.airdropTokenMint = some md
  signer : p.canSign = true
  window : InWindow w.now cd.campaignStartTime cd.expirationTime
  noFee : md.feeConfig = none
  unblocked : md.transferBlocked = false
  opensThawed : md.startsFrozen = false
  thawed : ∀ t, w.bank.tokens (.ata x md.program cd.airdropTokenMint) = some t → t.frozen = false
  enough : (grants.map Grant.value).sum ≤ w.bank.balance (.ata x md.program cd.airdropTokenMint)
  lamports : grants.length * grantRent rt cd.airdropTokenMint md.program ≤ w.lamports p

/-- All grants were delivered between `w` and `w'`, and nothing else happened. -/
structure Delivered (rt : Runtime) (w w' : World) (p x : Addr) (cd : Campaign) (md : MintData) (grants : List Grant) :
    Prop where
  claimed : ∀ g ∈ grants, hasClaimedView w' x g.index.toNat = .ok true
  /-- the vault paid the sum -/
  paid : w.bank.balance (.ata x md.program cd.airdropTokenMint) =
    w'.bank.balance (.ata x md.program cd.airdropTokenMint) + (grants.map Grant.value).sum
  /-- everybody got what was granted to them, in their own associated account -/
  received : ∀ r, r ≠ x → w'.bank.balance (.ata r md.program cd.airdropTokenMint) =
    w.bank.balance (.ata r md.program cd.airdropTokenMint) + ((grants.filter (·.recipient = r)).map Grant.value).sum
  theirs : ∀ g ∈ grants, ∃ t, w'.bank.tokens (.ata g.recipient md.program cd.airdropTokenMint) = some t ∧ t.owner = g.recipient
  /-- `p` paid the rent at most -/
  rent : w.lamports p ≤ w'.lamports p + grants.length * grantRent rt cd.airdropTokenMint md.program
  /-- no other claim, campaign, token account or mint changes -/
  receipts : ∀ a, (∀ g ∈ grants, a ≠ .claimReceipt x g.index.toNat) → w'.mi.receipts a = w.mi.receipts a
  campaign : ∃ t, campaignView w' x = .ok { cd with firstClaimTime := t }
  campaigns : ∀ y, y ≠ x → w'.mi.campaigns y = w.mi.campaigns y
  tokens : ∀ a, a ≠ .ata x md.program cd.airdropTokenMint →
    (∀ g ∈ grants, a ≠ .ata g.recipient md.program cd.airdropTokenMint) → w'.bank.tokens a = w.bank.tokens a
  mints : w'.bank.mints = w.bank.mints
  lockup : w'.lk = w.lk
  treasury : w'.mi.treasury = w.mi.treasury
  clock : w'.clock = w.clock

/-- The grant of an allocation: its recipient's address and the proof of the project's tree builder. -/
def grantOf (rt : Runtime) (l : List Allocation) (owner : Bytes32 → Addr) (a : Allocation) : Grant :=
  ⟨a.index, owner a.recipient, a.amount, getProof rt l a⟩

end Solsab.Spec
