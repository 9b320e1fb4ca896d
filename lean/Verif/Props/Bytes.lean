import Verif.Proofs.Pda
import Verif.Spec.Derive
import Verif.Props.Tree
/-!
# C53, C54: stored bytes and derived addresses
-/

namespace Solsab.Props

open Spec Demo Borsh Pda

/-! ## C53: account data -/

theorem write_read {α : Type} {disc : List UInt8} (hd : disc.length = 8) {c : Codec α} {x : α} (h : Reads c x)
    {old : List UInt8} (hfit : 8 + (c.enc x).length ≤ old.length) :
    ∃ data, writeAccount disc c old x = some data ∧ data.length = old.length ∧ readAccount disc c data = some x := by
  have hl : (disc ++ c.enc x).length = 8 + (c.enc x).length := by rw [List.length_append, hd]
  refine ⟨(disc ++ c.enc x) ++ old.drop (disc ++ c.enc x).length, ?_, ?_, ?_⟩
  · unfold writeAccount
    simp only
    rw [if_pos (by omega)]
  · rw [List.length_append, List.length_drop]; omega
  · unfold readAccount
    have e1 : ((disc ++ c.enc x) ++ old.drop (disc ++ c.enc x).length).take 8 = disc := by
      rw [List.append_assoc, List.take_append_of_le_length (by omega), List.take_of_length_le (by omega)]
    have e2 : ((disc ++ c.enc x) ++ old.drop (disc ++ c.enc x).length).drop 8 =
        c.enc x ++ old.drop (disc ++ c.enc x).length := by
      rw [List.append_assoc, List.drop_append_of_le_length (by omega), List.drop_of_length_le (by omega)]
      rfl
    rw [if_pos e1, e2, h]
    rfl

/-- **C53**: the bytes of each account: the declared fields in the declared order, integers little-endian,
booleans as one byte, keys raw, strings with a four-byte length. -/
theorem C53_layout (s : RawStream) (t : RawTreasury) (n : RawCollection) (c : RawCampaign) :
    stream.enc s = littleEndian 8 s.startUnlock.toNat ++ littleEndian 8 s.cliffUnlock.toNat ++
      littleEndian 8 s.deposited.toNat ++ littleEndian 8 s.refunded.toNat ++ littleEndian 8 s.withdrawn.toNat ++
      s.depositedTokenMint.val ++ littleEndian 1 s.bump.toNat ++ littleEndian 16 s.salt.val ++
      [if s.isCancelable then 1 else 0] ++ [if s.isDepleted then 1 else 0] ++
      littleEndian 8 s.cliff.toNat ++ littleEndian 8 s.end.toNat ++ littleEndian 8 s.start.toNat ++
      s.sender.val ++ [if s.wasCanceled then 1 else 0] ∧
    treasury.enc t = littleEndian 1 t.bump.toNat ++ t.feeCollector.val ++ t.chainlinkProgram.val ++
      t.chainlinkSolUsdFeed.val ∧
    collection.enc n = littleEndian 8 n.totalSupply.toNat ++ littleEndian 1 n.bump.toNat ∧
    campaign.enc c = c.airdropTokenMint.val ++ littleEndian 1 c.bump.toNat ++
      littleEndian 8 c.campaignStartTime.toNat ++ c.creator.val ++ littleEndian 8 c.expirationTime.toNat ++
      littleEndian 8 c.firstClaimTime.toNat ++ littleEndian 4 c.ipfsCid.length ++ c.ipfsCid ++ c.merkleRoot.val ++
      littleEndian 4 c.name.length ++ c.name := by
  simp only [stream, treasury, collection, campaign, struct, pair, u8, u64, u128, uint, Borsh.bool, key, string, Merkle.leBytes_eq,
    List.append_assoc, and_self]

example := C53_layout ⟨1, 2, 3, 4, 5, rt.keyBytes alice, 255, 7, true, false, 8, 9, 10, rt.keyBytes bob, true⟩
  ⟨255, rt.keyBytes alice, rt.keyBytes bob, rt.keyBytes carol⟩ ⟨3, 254⟩
  ⟨rt.keyBytes alice, 255, 1, rt.keyBytes bob, 2, 3, [81], root, [97]⟩

/-- **C53**: stream data, treasury data and collection data of any value have exactly the allocated size, are
always written successfully, and read back as the same value. -/
theorem C53_fixed_size {disc : List UInt8} (hd : disc.length = 8) (s : RawStream) (t : RawTreasury) (n : RawCollection) :
    (∀ old, old.length = Lockup.streamDataSpace → ∃ data, writeAccount disc stream old s = some data ∧
      data = disc ++ stream.enc s ∧ data.length = Lockup.streamDataSpace ∧ readAccount disc stream data = some s) ∧
    (∀ old, old.length = Lockup.treasurySpace → ∃ data, writeAccount disc treasury old t = some data ∧
      data = disc ++ treasury.enc t ∧ data.length = Lockup.treasurySpace ∧ readAccount disc treasury data = some t) ∧
    (∀ old, old.length = Lockup.nftCollectionDataSpace → ∃ data, writeAccount disc collection old n = some data ∧
      data = disc ++ collection.enc n ∧ data.length = Lockup.nftCollectionDataSpace ∧
      readAccount disc collection data = some n) := by
  have key : ∀ {α : Type} {c : Codec α} {x : α} {k : Nat}, Reads c x → 8 + (c.enc x).length = k →
      ∀ old, old.length = k → ∃ data, writeAccount disc c old x = some data ∧ data = disc ++ c.enc x ∧
        data.length = k ∧ readAccount disc c data = some x := by
    intro α c x k h hk old ho
    obtain ⟨data, h1, h2, h3⟩ := write_read hd h (by omega : 8 + (c.enc x).length ≤ old.length)
    refine ⟨data, h1, ?_, by omega, h3⟩
    unfold writeAccount at h1
    simp only at h1
    split at h1
    · injection h1 with h1
      rw [← h1, List.drop_of_length_le (by rw [List.length_append]; omega), List.append_nil]
    · cases h1
  refine ⟨key (stream_reads s) ?_, key (treasury_reads t) ?_, key (collection_reads n) ?_⟩
  · rw [stream_length]; rfl
  · rw [treasury_length]; rfl
  · rw [collection_length]; rfl

/-- **C53**: campaign data fits its account exactly if name and CID together have at most 91 bytes, and then
reads back as the same value. -/
theorem C53_campaign {disc : List UInt8} (hd : disc.length = 8) (c : RawCampaign) {old : List UInt8}
    (ho : old.length = Merkle.campaignSpace) :
    ((writeAccount disc campaign old c).isSome = true ↔ c.ipfsCid.length + c.name.length ≤ 91) ∧
    ∀ data, writeAccount disc campaign old c = some data →
      data.length = Merkle.campaignSpace ∧ readAccount disc campaign data = some c := by
  have hsp : Merkle.campaignSpace = 228 := rfl
  have hl := campaign_length c
  have hiff : (writeAccount disc campaign old c).isSome = true ↔ c.ipfsCid.length + c.name.length ≤ 91 := by
    unfold writeAccount
    simp only [List.length_append, hd, hl, ho, hsp]
    split
    · simp; omega
    · simp; omega
  refine ⟨hiff, fun data h => ?_⟩
  have hle := hiff.1 (by rw [h]; rfl)
  obtain ⟨data', h1, h2, h3⟩ := write_read hd (campaign_reads (x := c) (by omega) (by omega)) (old := old) (by omega)
  rw [h] at h1
  injection h1 with h1
  subst h1
  exact ⟨by omega, h3⟩

/-- The number of bytes the model charges for a campaign is the length of its encoding. -/
theorem C53_campaign_size (rt : Runtime) (c : Merkle.Campaign) :
    c.encodedSize = 8 + (campaign.enc (rawCampaign rt c)).length := by
  rw [campaign_length]
  unfold Merkle.Campaign.encodedSize rawCampaign
  simp only
  omega

/-- **C53**: data written as one kind of account is never read as another kind: the five discriminators
(computed with SHA-256) are different. -/
theorem C53_discriminators : (["StreamData", "Treasury", "NftCollectionData", "Campaign", "ClaimReceipt"].map
      Sha256.discriminator).Pairwise (· ≠ ·) ∧
    ∀ n ∈ ["StreamData", "Treasury", "NftCollectionData", "Campaign", "ClaimReceipt"],
      (Sha256.discriminator n).length = 8 := by
  have e : ["StreamData", "Treasury", "NftCollectionData", "Campaign", "ClaimReceipt"].map Sha256.discriminator =
      [[61, 89, 148, 141, 154, 81, 86, 113], [238, 239, 123, 238, 89, 1, 168, 253],
       [159, 26, 37, 150, 44, 84, 171, 172], [50, 40, 49, 11, 157, 220, 229, 192],
       [223, 233, 11, 229, 124, 165, 207, 28]] := by decide +kernel
  constructor
  · rw [e]; decide
  · intro n hn
    have h : Sha256.discriminator n ∈ ["StreamData", "Treasury", "NftCollectionData", "Campaign", "ClaimReceipt"].map
      Sha256.discriminator := List.mem_map.2 ⟨n, hn, rfl⟩
    rw [e] at h
    revert h
    generalize Sha256.discriminator n = l
    intro h
    have : ∀ l ∈ ([[61, 89, 148, 141, 154, 81, 86, 113], [238, 239, 123, 238, 89, 1, 168, 253],
       [159, 26, 37, 150, 44, 84, 171, 172], [50, 40, 49, 11, 157, 220, 229, 192],
       [223, 233, 11, 229, 124, 165, 207, 28]] : List (List UInt8)), l.length = 8 := by decide
    exact this l h

theorem C53_no_confusion {α β : Type} {c : Codec α} {c' : Codec β} {disc disc' old data : List UInt8} {x : α}
    (hd : disc.length = 8) (hne : disc ≠ disc') (h : writeAccount disc c old x = some data) :
    readAccount disc' c' data = none := by
  unfold writeAccount at h
  simp only at h
  split at h
  · injection h with h
    subst h
    unfold readAccount
    rw [if_neg]
    rw [List.append_assoc, List.take_append_of_le_length (by omega), List.take_of_length_le (by omega)]
    exact hne
  · cases h

/-- **C53**: in every reachable state the stored integers of a stream are the model's numbers: nothing is lost
by storing them in `u64`/`u128`. -/
theorem C53_stream_lossless {rt : Runtime} {w : World} (hr : Reachable rt w) {s : Addr} {sd : Lockup.StreamData}
    (hx : w.lk.streams s = some sd) :
    (rawStream rt sd).startUnlock.toNat = sd.amounts.startUnlock ∧
    (rawStream rt sd).cliffUnlock.toNat = sd.amounts.cliffUnlock ∧
    (rawStream rt sd).deposited.toNat = sd.amounts.deposited ∧
    (rawStream rt sd).refunded.toNat = sd.amounts.refunded ∧
    (rawStream rt sd).withdrawn.toNat = sd.amounts.withdrawn ∧
    (rawStream rt sd).salt.val = sd.salt ∧
    (rawStream rt sd).cliff.toNat = sd.timestamps.cliff ∧
    (rawStream rt sd).end.toNat = sd.timestamps.end ∧
    (rawStream rt sd).start.toNat = sd.timestamps.start := by
  have h := hr.streamOK hx
  obtain ⟨_, _, h6, h7, h8⟩ := h.terms
  have h2 := h.dep64
  have h3 := h.end64
  have h4 := h.sum_le
  have h5 := h.salt
  unfold rawStream
  simp only [UInt64.toNat_ofNat', Fin.ofNat]
  refine ⟨?_, ?_, ?_, ?_, ?_, ?_, ?_, ?_, ?_⟩ <;> apply Nat.mod_eq_of_lt <;> omega

/-- **C53**: the same for campaigns. -/
theorem C53_campaign_lossless {rt : Runtime} {w : World} (hr : Reachable rt w) {x : Addr} {cd : Merkle.Campaign}
    (hx : w.mi.campaigns x = some cd) :
    (rawCampaign rt cd).campaignStartTime.toNat = cd.campaignStartTime ∧
    (rawCampaign rt cd).expirationTime.toNat = cd.expirationTime ∧
    (rawCampaign rt cd).firstClaimTime.toNat = cd.firstClaimTime ∧
    (rawCampaign rt cd).name = cd.name ∧ (rawCampaign rt cd).ipfsCid = cd.ipfsCid ∧
    (rawCampaign rt cd).ipfsCid.length + (rawCampaign rt cd).name.length ≤ 91 := by
  have h := hr.campaignOK hx
  have h1 := h.start64
  have h2 := h.exp64
  have h3 := h.first_le
  have h4 := now_lt w
  have h5 := h.fits
  unfold Merkle.Campaign.encodedSize Merkle.campaignSpace Merkle.CAMPAIGN_IPFS_CID_SIZE Merkle.CAMPAIGN_NAME_SIZE at h5
  unfold rawCampaign
  simp only [UInt64.toNat_ofNat']
  refine ⟨Nat.mod_eq_of_lt (by omega), Nat.mod_eq_of_lt (by omega), Nat.mod_eq_of_lt (by omega), trivial, trivial, by omega⟩

example := C53_stream_lossless reach3 (s := str 1) 
  (sd := ⟨⟨100, 200, 1000, 0, 200⟩, mint, 255, 1, true, false, ⟨3000, 6000, 2000⟩, alice, false⟩) (by decide +kernel)
example := C53_campaign_lossless reach3 (x := camp) 
  (cd := ⟨mint, 255, 1500, alice, 800000, 4000, [81, 109], root, campaignName⟩) (by decide +kernel)
/-- A concrete campaign: written over a fresh account and read back. -/
example : (writeAccount (Sha256.discriminator "Campaign") campaign (List.replicate 228 0)
    (rawCampaign rt ⟨mint, 255, 1500, alice, 800000, 4000, [81, 109], root, campaignName⟩)).isSome = true :=
  (C53_campaign (C53_discriminators.2 "Campaign" (by simp)) _ (by decide +kernel)).1.2 (by decide +kernel)

/-! ## C54: derived addresses -/

/-- **C54**: the byte strings that are hashed to derive the programs' addresses determine the kind of account,
all its seed values (including the campaign's variable-length name) and the bump. -/
theorem C54_preimage {s s' : Seeds} {b b' : UInt8} (h : s.preimage b = s'.preimage b') : s = s' ∧ b = b' :=
  preimage_inj h

/-- The name "ab" with one mint and the name "abc" with another: different preimages. -/
example : (Seeds.campaign (rt.keyBytes alice) root 1 2 [97, 98] (rt.keyBytes mint)).preimage 255 ≠
    (Seeds.campaign (rt.keyBytes alice) root 1 2 [97, 98, 99] (rt.keyBytes bob)).preimage 255 :=
  fun h => by have := (C54_preimage h).1; injection this with _ _ _ _ h; cases h

theorem bytes_of_seeds {d : Derivation} {a : Addr} {s : Seeds} (h : d.seeds? a = some s) :
    d.bytes a = d.sha256 (s.preimage (d.bump a)) := by
  cases a <;> cases h <;> rfl

theorem self_ingredient (a : Addr) : a ∈ ingredients a := by cases a <;> simp [ingredients]

/-- Two different derived addresses with the same bytes clash themselves, or have the same seeds. -/
theorem clash_or_seeds {d : Derivation} {a b : Addr} {s s' : Seeds} (ha : d.seeds? a = some s) (hb : d.seeds? b = some s')
    (hne : a ≠ b) (h : d.bytes a = d.bytes b) : Clash d a b ∨ s = s' := by
  by_cases hp : s.preimage (d.bump a) = s'.preimage (d.bump b)
  · exact .inr (preimage_inj hp).1
  · refine .inl ⟨hne, h, .inr (.inr ⟨s, s', ha, hb, hp, ?_⟩)⟩
    rw [← bytes_of_seeds ha, ← bytes_of_seeds hb, h]

/-- **C54**: the symbolic addresses of the model are faithful: two different ones have the same 32 bytes only
if, among them and the addresses they are derived from, a key of the outside world coincides with another
address or two different byte strings have the same SHA-256 hash. -/
theorem C54_symbolic (d : Derivation) {a b : Addr} (ha : InRange a) (hb : InRange b) (hne : a ≠ b)
    (h : d.bytes a = d.bytes b) : ∃ x ∈ ingredients a, ∃ y ∈ ingredients b, Clash d x y := by
  induction a generalizing b with
  | key n => exact ⟨_, self_ingredient _, b, self_ingredient _, hne, h, .inl ⟨n, rfl⟩⟩
  | treasury p =>
    cases b with
    | key m => exact ⟨_, self_ingredient _, _, self_ingredient _, hne, h, .inr (.inl ⟨m, rfl⟩)⟩
    | _ =>
      rcases clash_or_seeds (d := d) rfl rfl hne h with hc | hc
      · exact ⟨_, self_ingredient _, _, self_ingredient _, hc⟩
      · first | (cases hc; exact absurd rfl hne) | cases hc
  | nftCollectionData =>
    cases b with
    | key m => exact ⟨_, self_ingredient _, _, self_ingredient _, hne, h, .inr (.inl ⟨m, rfl⟩)⟩
    | _ =>
      rcases clash_or_seeds (d := d) rfl rfl hne h with hc | hc
      · exact ⟨_, self_ingredient _, _, self_ingredient _, hc⟩
      · first | (cases hc; exact absurd rfl hne) | cases hc
  | nftCollectionMint =>
    cases b with
    | key m => exact ⟨_, self_ingredient _, _, self_ingredient _, hne, h, .inr (.inl ⟨m, rfl⟩)⟩
    | _ =>
      rcases clash_or_seeds (d := d) rfl rfl hne h with hc | hc
      · exact ⟨_, self_ingredient _, _, self_ingredient _, hc⟩
      · first | (cases hc; exact absurd rfl hne) | cases hc
  | streamNftMint s n ih =>
    cases b with
    | key m => exact ⟨_, self_ingredient _, _, self_ingredient _, hne, h, .inr (.inl ⟨m, rfl⟩)⟩
    | streamNftMint s' n' =>
      rcases clash_or_seeds (d := d) rfl rfl hne h with hc | hc
      · exact ⟨_, self_ingredient _, _, self_ingredient _, hc⟩
      · injection hc with h1 h2
        have h2 : n = n' := by
          have := congrArg Fin.val h2
          simp only [Fin.ofNat] at this
          rwa [Nat.mod_eq_of_lt ha.2, Nat.mod_eq_of_lt hb.2] at this
        have hs : s ≠ s' := fun e => hne (by rw [e, h2])
        obtain ⟨x, hx, y, hy, hc⟩ := ih ha.1 hb.1 hs h1
        exact ⟨x, List.mem_cons_of_mem _ hx, y, List.mem_cons_of_mem _ hy, hc⟩
    | _ =>
      rcases clash_or_seeds (d := d) rfl rfl hne h with hc | hc
      · exact ⟨_, self_ingredient _, _, self_ingredient _, hc⟩
      · cases hc
  | streamData m ih =>
    cases b with
    | key m => exact ⟨_, self_ingredient _, _, self_ingredient _, hne, h, .inr (.inl ⟨m, rfl⟩)⟩
    | streamData m' =>
      rcases clash_or_seeds (d := d) rfl rfl hne h with hc | hc
      · exact ⟨_, self_ingredient _, _, self_ingredient _, hc⟩
      · injection hc with h1
        obtain ⟨x, hx, y, hy, hc⟩ := ih (b := m') ha hb (fun e => hne (by rw [e])) h1
        exact ⟨x, List.mem_cons_of_mem _ hx, y, List.mem_cons_of_mem _ hy, hc⟩
    | _ =>
      rcases clash_or_seeds (d := d) rfl rfl hne h with hc | hc
      · exact ⟨_, self_ingredient _, _, self_ingredient _, hc⟩
      · cases hc
  | campaign c r st ex nm m ihc ihm =>
    cases b with
    | key m => exact ⟨_, self_ingredient _, _, self_ingredient _, hne, h, .inr (.inl ⟨m, rfl⟩)⟩
    | campaign c' r' st' ex' nm' m' =>
      rcases clash_or_seeds (d := d) rfl rfl hne h with hc | hc
      · exact ⟨_, self_ingredient _, _, self_ingredient _, hc⟩
      · injection hc with h1 h2 h3 h4 h5 h6
        have h3 : st = st' := by
          have := congrArg UInt64.toNat h3
          simp only [UInt64.toNat_ofNat'] at this
          rwa [Nat.mod_eq_of_lt ha.2.1, Nat.mod_eq_of_lt hb.2.1] at this
        have h4 : ex = ex' := by
          have := congrArg UInt64.toNat h4
          simp only [UInt64.toNat_ofNat'] at this
          rwa [Nat.mod_eq_of_lt ha.2.2.1, Nat.mod_eq_of_lt hb.2.2.1] at this
        by_cases hcc : c = c'
        · have hm : m ≠ m' := fun e => hne (by rw [e, hcc, h2, h3, h4, h5])
          obtain ⟨x, hx, y, hy, hc⟩ := ihm ha.2.2.2 hb.2.2.2 hm h6
          exact ⟨x, List.mem_cons_of_mem _ (List.mem_append_right _ hx), y,
            List.mem_cons_of_mem _ (List.mem_append_right _ hy), hc⟩
        · obtain ⟨x, hx, y, hy, hc⟩ := ihc ha.1 hb.1 hcc h1
          exact ⟨x, List.mem_cons_of_mem _ (List.mem_append_left _ hx), y,
            List.mem_cons_of_mem _ (List.mem_append_left _ hy), hc⟩
    | _ =>
      rcases clash_or_seeds (d := d) rfl rfl hne h with hc | hc
      · exact ⟨_, self_ingredient _, _, self_ingredient _, hc⟩
      · cases hc
  | claimReceipt c i ih =>
    cases b with
    | key m => exact ⟨_, self_ingredient _, _, self_ingredient _, hne, h, .inr (.inl ⟨m, rfl⟩)⟩
    | claimReceipt c' i' =>
      rcases clash_or_seeds (d := d) rfl rfl hne h with hc | hc
      · exact ⟨_, self_ingredient _, _, self_ingredient _, hc⟩
      · injection hc with h1 h2
        have h2 : i = i' := by
          have := congrArg UInt32.toNat h2
          simp only [UInt32.toNat_ofNat'] at this
          rwa [Nat.mod_eq_of_lt ha.2, Nat.mod_eq_of_lt hb.2] at this
        have hs : c ≠ c' := fun e => hne (by rw [e, h2])
        obtain ⟨x, hx, y, hy, hc⟩ := ih ha.1 hb.1 hs h1
        exact ⟨x, List.mem_cons_of_mem _ hx, y, List.mem_cons_of_mem _ hy, hc⟩
    | _ =>
      rcases clash_or_seeds (d := d) rfl rfl hne h with hc | hc
      · exact ⟨_, self_ingredient _, _, self_ingredient _, hc⟩
      · cases hc
  | metadata m ih =>
    cases b with
    | key m => exact ⟨_, self_ingredient _, _, self_ingredient _, hne, h, .inr (.inl ⟨m, rfl⟩)⟩
    | metadata m' =>
      rcases clash_or_seeds (d := d) rfl rfl hne h with hc | hc
      · exact ⟨_, self_ingredient _, _, self_ingredient _, hc⟩
      · injection hc with h1
        obtain ⟨x, hx, y, hy, hc⟩ := ih (b := m') ha hb (fun e => hne (by rw [e])) h1
        exact ⟨x, List.mem_cons_of_mem _ hx, y, List.mem_cons_of_mem _ hy, hc⟩
    | _ =>
      rcases clash_or_seeds (d := d) rfl rfl hne h with hc | hc
      · exact ⟨_, self_ingredient _, _, self_ingredient _, hc⟩
      · cases hc
  | edition m ih =>
    cases b with
    | key m => exact ⟨_, self_ingredient _, _, self_ingredient _, hne, h, .inr (.inl ⟨m, rfl⟩)⟩
    | edition m' =>
      rcases clash_or_seeds (d := d) rfl rfl hne h with hc | hc
      · exact ⟨_, self_ingredient _, _, self_ingredient _, hc⟩
      · injection hc with h1
        obtain ⟨x, hx, y, hy, hc⟩ := ih (b := m') ha hb (fun e => hne (by rw [e])) h1
        exact ⟨x, List.mem_cons_of_mem _ hx, y, List.mem_cons_of_mem _ hy, hc⟩
    | _ =>
      rcases clash_or_seeds (d := d) rfl rfl hne h with hc | hc
      · exact ⟨_, self_ingredient _, _, self_ingredient _, hc⟩
      · cases hc
  | ata o p m iho ihm =>
    cases b with
    | key m => exact ⟨_, self_ingredient _, _, self_ingredient _, hne, h, .inr (.inl ⟨m, rfl⟩)⟩
    | ata o' p' m' =>
      rcases clash_or_seeds (d := d) rfl rfl hne h with hc | hc
      · exact ⟨_, self_ingredient _, _, self_ingredient _, hc⟩
      · injection hc with h1 h2 h3
        by_cases hcc : o = o'
        · have hm : m ≠ m' := fun e => hne (by rw [e, hcc, h2])
          obtain ⟨x, hx, y, hy, hc⟩ := ihm ha.2 hb.2 hm h3
          exact ⟨x, List.mem_cons_of_mem _ (List.mem_append_right _ hx), y,
            List.mem_cons_of_mem _ (List.mem_append_right _ hy), hc⟩
        · obtain ⟨x, hx, y, hy, hc⟩ := iho ha.1 hb.1 hcc h1
          exact ⟨x, List.mem_cons_of_mem _ (List.mem_append_left _ hx), y,
            List.mem_cons_of_mem _ (List.mem_append_left _ hy), hc⟩
    | _ =>
      rcases clash_or_seeds (d := d) rfl rfl hne h with hc | hc
      · exact ⟨_, self_ingredient _, _, self_ingredient _, hc⟩
      · cases hc

/-- With a "hash" that maps everything to one value, the theorem exhibits the clash. -/
example := C54_symbolic ⟨fun _ => rt.keyBytes alice, fun _ => 255, fun n => rt.keyBytes (.key n)⟩
  (a := str 1) (b := str 2) (by simp [InRange, str, nft, alice]) (by simp [InRange, str, nft, alice]) (by decide +kernel) rfl

end Solsab.Props
