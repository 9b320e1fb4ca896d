import Verif.Props.Create
import Verif.Props.Cancel
import Verif.Props.Campaign
/-!
# C70, C71: what a burned stream NFT and an occupied vault address mean, for ever
-/

namespace Solsab.Props

open Lockup Spec Demo

/-- A successful withdrawal needs the stream's NFT to be in circulation. -/
theorem withdraw_supply {rt : Runtime} {w w' : World} (hr : Reachable rt w) {ix : Ix} {c : WithdrawAccts}
    (hc : ix.withdrawAccts = some c) {s : Addr} {n : Nat} (hx : c.streamData = streamAddr s n)
    (h : step rt w ix = .ok w') : ∃ md, w.bank.mints (.streamNftMint s n) = some md ∧ md.supply = 1 := by
  obtain ⟨a, h⟩ := withdrawIx hr hc h
  obtain ⟨s', n', sd, sd', dm, b₁, b₂, l, h1, h2, hv, hw⟩ := withdraw_stream hr h
  obtain ⟨rfl, rfl⟩ := streamAddr_inj (hx.symm.trans h1)
  obtain ⟨t, ha, hp, _⟩ := hw.accts.nft
  have hm := (ata_token hr.bankInv (hw.accts.nftAddr ▸ ha)).2
  exact (C30_unique_holder hr ha (hm.trans h2) (by omega)).2.1

/-- **C70**: once the NFT of a stream is burned (supply 0), nobody can ever withdraw from the stream again: in
every later state every `withdraw` and `withdraw_max` on it fails, whatever the accounts, the amount and the
signer; the recorded withdrawn amount stays the same, and what the views report as withdrawable (and the
vault therefore keeps, C18) never shrinks. -/
theorem C70_burned {rt : Runtime} {w w' : World} (hr : Reachable rt w) (hs : Steps rt w w') {s : Addr} {n : Nat}
    {sd : StreamData} (hx : w.lk.streams (streamAddr s n) = some sd) {md : MintData}
    (hm : w.bank.mints (.streamNftMint s n) = some md) (h0 : md.supply = 0) :
    (∀ ix c w'', ix.withdrawAccts = some c → c.streamData = streamAddr s n → step rt w' ix ≠ .ok w'') ∧
    (∃ sd', w'.lk.streams (streamAddr s n) = some sd' ∧ sd'.amounts.withdrawn = sd.amounts.withdrawn) ∧
    ∃ x x', withdrawableAmountOf rt w (viewOf s n) = .ok x ∧ withdrawableAmountOf rt w' (viewOf s n) = .ok x' ∧
      x ≤ x' := by
  have dead : ∀ {u : World}, Steps rt w u → ∀ ix c w'', Ix.withdrawAccts ix = some c →
      c.streamData = streamAddr s n → step rt u ix ≠ .ok w'' := by
    intro u hu ix c w'' hc hcx h
    obtain ⟨md', h1, h2⟩ := Steps.nft_supply hr hu (s := s) (n := n) md hm
    obtain ⟨md'', h3, h4⟩ := withdraw_supply (hr.steps hu) hc hcx h
    rw [h1] at h3; cases h3; omega
  have key : ∃ sd', w'.lk.streams (streamAddr s n) = some sd' ∧ sd'.amounts.withdrawn = sd.amounts.withdrawn := by
    induction hs with
    | refl => exact ⟨sd, hx, rfl⟩
    | tail ix h1 h2 ih =>
      obtain ⟨sd', he, hw⟩ := ih
      obtain ⟨sd'', he', hev, hsp⟩ := (step_did h2).evolves (hr.steps h1) he
      refine ⟨sd'', he', ?_⟩
      rw [← hw]
      rcases (step_did h2).stream (streamAddr s n) with ⟨_, hq⟩ |
          ⟨c, p, nd, dm, md, cm, k, name, b₁, b₂, b₃, b₄, b₆, l, hce, _, hp, hok⟩ |
          ⟨c, amount, sd₀, sd₁, dm, b₁, b₂, l, hce, hix, hok⟩ | ⟨c, sd₀, dm, streamed, b₁, b₂, l, hce, hix, hok⟩ |
          ⟨c, sd₀, streamed, hce, hix, hok⟩
      · rw [hsp hq]
      · have := hok.fresh; rw [hce, he] at this; cases this
      · exfalso
        match ix, hix with
        | .lockup (.withdraw c' a), hix => exact dead h1 _ c' _ rfl (by simpa [Ix.withdrawsFrom] using hix) h2
        | .lockup (.withdrawMax c'), hix => exact dead h1 _ c' _ rfl (by simpa [Ix.withdrawsFrom] using hix) h2
      · have h3 := hok.accts.stream
        rw [hce, he] at h3; cases h3
        rw [hok.result, ← hce] at he'
        simp only [upd_same, Option.some.injEq] at he'
        rw [← he']; rfl
      · have h3 := hok.stream
        rw [hce, he] at h3; cases h3
        rw [hok.result, ← hce] at he'
        simp only [upd_same, Option.some.injEq] at he'
        rw [← he']; rfl
  refine ⟨dead hs, key, ?_⟩
  obtain ⟨sd', he, hw⟩ := key
  refine ⟨_, _, (hr.viewsOf hx).withdrawable, ((hr.steps hs).viewsOf he).withdrawable, ?_⟩
  have := hs.streamed_mono hr hx he
  omega

/-- The NFT of stream 1 burned by its holder at time 4000, after 200 were withdrawn. -/
def burnt : World := after world3 [.env (.metaplexBurn (.ata bob tok (nft 1)) bob (nft 1))]

theorem steps3burnt : Steps rt world3 burnt := steps_after (by decide +kernel)

example := C70_burned (reach3.steps steps3burnt) (.refl _) (s := alice) (n := 1)
  (sd := ⟨⟨100, 200, 1000, 0, 200⟩, mint, 255, 1, true, false, ⟨3000, 6000, 2000⟩, alice, false⟩)
  (md := ⟨tok, 0, some (.edition (nft 1)), some (.edition (nft 1)), 0, none, none, false, false⟩)
  (by decide +kernel) (by decide +kernel) rfl

/-- **C70**, the sender's side: the burn takes nothing from the sender.  With the NFT burned, a stream in a plain token
whose transfers work can be canceled as long as something is refundable, and pays exactly that to the sender. -/
theorem C70_cancel {rt : Runtime} {w : World} (hr : Reachable rt w) {c : CancelAccts} {s : Addr} {n : Nat}
    {sd : StreamData} {md nft : MintData} (_ : w.bank.mints (.streamNftMint s n) = some nft) (_ : nft.supply = 0)
    (hc : CancelReady rt w c s n sd md) (hp : md.Plain) (ht : Transferable w md c.streamDataAta c.senderAta) {x : Nat}
    (hx : refundableAmountOf rt w (viewOf s n) = .ok x) (hpos : 0 < x) :
    ∃ w', step rt w (.lockup (.cancel c)) = .ok w' ∧
      w'.bank.balance c.senderAta = w.bank.balance c.senderAta + x ∧
      w'.bank.balance c.streamDataAta = w.bank.balance c.streamDataAta - x := by
  obtain ⟨w', h⟩ := C14_cancel_succeeds hr hc hp ht hx hpos
  obtain ⟨s', n', sd₁, sd', md', x', y, h1, h2, _, h3, h4, _, _, _, _, _, _, _, _, _, _, _, _, h5, h6, _⟩ :=
    C14_cancel_effect hr h
  obtain ⟨rfl, rfl⟩ := streamAddr_inj (hc.a2.symm.trans h1)
  rw [hx] at h4; cases h4
  rw [hc.stream] at h2; cases h2
  rw [hc.mint] at h3; cases h3
  refine ⟨w', h, ?_, h5⟩
  rw [h6, plain_fee hp, Nat.sub_zero]

theorem burnt_cancelReady : CancelReady rt burnt (cancelAccts 1) alice 1
    ⟨⟨100, 200, 1000, 0, 200⟩, Demo.mint, 255, 1, true, false, ⟨3000, 6000, 2000⟩, alice, false⟩
    { plainMint with supply := 1000000 } := by
  constructor
  case usable => exact .inl ⟨⟨tok, Demo.mint, alice, 997500, false⟩, by decide +kernel⟩
  all_goals decide +kernel

theorem burnt_transferable : Transferable burnt { plainMint with supply := 1000000 }
    (cancelAccts 1).streamDataAta (cancelAccts 1).senderAta := by
  refine ⟨rfl, ?_, ?_, fun _ => rfl, by decide +kernel⟩
  · intro t ht
    have : burnt.bank.tokens (cancelAccts 1).streamDataAta = some ⟨tok, Demo.mint, str 1, 800, false⟩ := by
      decide +kernel
    rw [this] at ht; cases ht; rfl
  · intro t ht
    have : burnt.bank.tokens (cancelAccts 1).senderAta =
        some ⟨tok, Demo.mint, alice, 997500, false⟩ := by decide +kernel
    rw [this] at ht; cases ht; rfl

example := C70_cancel (reach3.steps steps3burnt)
  (nft := ⟨tok, 0, some (.edition (nft 1)), some (.edition (nft 1)), 0, none, none, false, false⟩)
  (by decide +kernel) rfl burnt_cancelReady ⟨rfl, rfl⟩ burnt_transferable (x := 467)
  (by rw [((reach3.steps steps3burnt).viewsOf (s := alice) (n := 1) burnt_cancelReady.stream).refundable]
      exact congrArg Except.ok (by decide +kernel))
  (by decide)

/-- The sender's part is not locked: the stream can still be canceled. -/
example : (step rt burnt ixCancel).isOk = true := by decide +kernel
example : (withdrawableAmountOf rt burnt (viewOf alice 1)).toOption = some 333 := by decide +kernel
example : (step rt burnt ixWithdrawMax).isOk = false ∧ (step rt world3 ixWithdrawMax).isOk = true := by decide +kernel

/-! ## C71: occupied vault addresses -/

/-- A token account of an owner that cannot sign is never closed. -/
theorem account_forever {rt : Runtime} {w w' : World} (hs : Steps rt w w') {a : Addr} {t : TokenData}
    (ha : w.bank.tokens a = some t) (ho : t.owner.canSign = false) :
    ∃ t', w'.bank.tokens a = some t' ∧ t'.owner = t.owner := by
  induction hs with
  | refl => exact ⟨t, ha, rfl⟩
  | tail ix h1 h2 ih =>
    obtain ⟨t', he, ho'⟩ := ih
    obtain ⟨t'', he', hk, _⟩ := (step_did h2).account he (by rw [ho']; exact ho)
    exact ⟨t'', he', hk.2.2.trans ho'⟩

/-- **C71**, the hazard: whoever can pay the rent can open the vault account of a stream that does not exist yet
(any sender, salt and token), with one call to the associated-token program. -/
theorem C71_anyone_can {rt : Runtime} {w : World} (hr : Reachable rt w) {p m : Addr} {md : MintData} (s : Addr) (n : Nat)
    (hp : p.canSign = true) (hm : w.bank.mints m = some md)
    (hv : w.bank.tokens (.ata (streamAddr s n) md.program m) = none)
    (hl : max (rt.rent (World.tokenSpace rt m md.program)) 1 ≤ w.lamports p) :
    ∃ w' t, step rt w (.env (.createAta p (.ata (streamAddr s n) md.program m) (streamAddr s n) md.program m)) = .ok w' ∧
      w'.bank.tokens (.ata (streamAddr s n) md.program m) = some t := by
  obtain ⟨l, h, _⟩ := createAta_new (rt := rt) (o := streamAddr s n) hm rfl hv (ata_not_mint hr.bankInv _ _ _) hp hl
  refine ⟨{ w with
    bank := w.bank.setToken (.ata (streamAddr s n) md.program m) (some ⟨md.program, m, streamAddr s n, 0, md.startsFrozen⟩)
    lamports := l }, ⟨md.program, m, streamAddr s n, 0, md.startsFrozen⟩, ?_, ?_⟩
  · rw [step, EnvIx.run, req_bind hp]; exact h
  · simp

/-- **C71**, streams: if the vault account of a stream is already open, that stream can never be created with that
token, in either variant, with whatever terms and other accounts. -/
theorem C71_stream_blocked {rt : Runtime} {w w' : World} (hr : Reachable rt w) (hs : Steps rt w w') {s m : Addr}
    {n : Nat} {tp : TokenProgram} {t : TokenData} (hv : w.bank.tokens (.ata (streamAddr s n) tp m) = some t)
    {c : CreateAccts} {salt : Fin (2 ^ 128)} (hsalt : salt.val = n)
    (hc : c.sender = s ∧ c.depositTokenMint = m ∧ c.depositTokenProgram = tp) (w'' : World) (dep a b d su cu : UInt64) (ca : Bool) :
    step rt w' (.lockup (.createWithTimestamps c salt dep a b d su cu ca)) ≠ .ok w'' ∧
    step rt w' (.lockup (.createWithDurations c salt dep a b su cu ca)) ≠ .ok w'' := by
  obtain ⟨rfl, rfl, rfl⟩ := hc
  subst hsalt
  have ho : t.owner.canSign = false := by
    rcases hr.bankInv.tok_addr _ _ hv with ⟨k, hk⟩ | ⟨o, hk, ho⟩
    · cases hk
    · injection hk with h1
      rw [ho (by rw [← h1]; rfl), ← h1]; rfl
  obtain ⟨t', ht', _⟩ := account_forever hs hv ho
  have key : ∀ p : CreateParams, p.salt = salt.val → ∀ w'', createWithTimestamps rt w' c p ≠ .ok w'' := by
    intro p hp w'' h
    obtain ⟨nd, dm, md, cm, k, name, b₁, b₂, b₃, b₄, b₆, l, h⟩ := create_ok h
    obtain ⟨_, h1, _, _⟩ := openAccount_ok h.openVault
    obtain ⟨_, _, _, e2⟩ := openAccount_ok h.openNftAta
    obtain ⟨_, _, e1⟩ := openMint_ok h.openMint
    rw [h.vaultAddr, h.streamAddr, h.nftMintAddr, hp, e2, e1, setToken_tokens, upd_apply] at h1
    split at h1
    · cases h1
    · exact absurd (ht'.symm.trans h1) (by simp)
  refine ⟨fun h => key _ rfl _ h, fun h => ?_⟩
  obtain ⟨_, _, h⟩ := createWithDurations_eq h
  exact key _ rfl _ h

/-- Carol opens the vault of alice's future stream 9. -/
def squatted : World := after world2
  [.env (.createAta carol (.ata (str 9) tok mint) (str 9) tok mint)]

theorem steps2squat : Steps rt world2 squatted := steps_after (by decide +kernel)

example := C71_anyone_can reach2 (p := carol) (m := mint) (md := (world2.bank.mints mint).get (by decide +kernel)) alice 9 rfl
  (by decide +kernel) (by decide +kernel) (by decide +kernel)
example := C71_stream_blocked (reach2.steps steps2squat) (.refl _) (s := alice) (n := 9) (tp := tok) (m := mint)
  (t := ⟨tok, mint, str 9, 0, false⟩) (by decide +kernel) (c := createAccts 9) (salt := 9) rfl
  ⟨rfl, rfl, rfl⟩ world2 1000 2000 3000 6000 100 200 true
/-- Without carol's account the same creation would have succeeded, and with salt 10 it still does. -/
example : (step rt world2 (.lockup (.createWithTimestamps (createAccts 9) 9 100 2000 3000 6000 10 20 true))).isOk = true ∧
    (step rt squatted (.lockup (.createWithTimestamps (createAccts 9) 9 100 2000 3000 6000 10 20 true))).isOk = false ∧
    (step rt squatted (.lockup (.createWithTimestamps (createAccts 10) 10 100 2000 3000 6000 10 20 true))).isOk = true := by
  decide +kernel

/-- **C71**, the way out: opening somebody else's future vault does not affect a prepared creation with another
salt, sender or token. -/
theorem C71_others_unaffected {rt : Runtime} {w w' : World} {p s m : Addr} {n : Nat} {tp : TokenProgram}
    (h : step rt w (.env (.createAta p (.ata (streamAddr s n) tp m) (streamAddr s n) tp m)) = .ok w')
    {c : CreateAccts} {n' : Nat} {md : MintData} {nd : NftCollectionData} (hc : CreateReady rt w c n' md nd)
    (hp : p ≠ c.creator) (hne : ¬ (c.sender = s ∧ n' = n ∧ c.depositTokenMint = m)) : CreateReady rt w' c n' md nd := by
  rw [step, EnvIx.run] at h
  obtain ⟨_, _, h⟩ := bind_ok.1 h
  obtain ⟨b, l, _, hb, hl, rfl⟩ := createAta_ok h
  obtain ⟨_, hn, _, rfl⟩ := openAccount_ok hb
  obtain ⟨t, ht, hto⟩ := hc.creatorAta
  exact { hc with
    creatorAta := ⟨t, by
      rw [setToken_tokens, upd_ne _ _ (by rintro e; rw [e, hn] at ht; cases ht)]; exact ht, hto⟩
    vaultUnused := by
      rw [setToken_tokens, upd_ne _ _ ?_]
      · exact hc.vaultUnused
      · intro e
        rw [hc.a8] at e
        injection e with e1 e2 e3
        obtain ⟨rfl, rfl⟩ := streamAddr_inj e1
        exact hne ⟨rfl, rfl, e3⟩
    funds := Nat.le_trans hc.funds (hl _ (Ne.symm hp)) }

example := C71_others_unaffected (rt := rt) (w := world1) (p := carol) (s := alice) (n := 9) (tp := tok) (m := mint)
  (step_after (by decide +kernel)) demoReady1 (by decide +kernel) (by rintro ⟨_, h, _⟩; cases h)

/-- **C71**, campaigns: if the vault account of a campaign is already open, no campaign with that address and token
program can ever be created. -/
theorem C71_campaign_blocked {rt : Runtime} {w w' : World} (hr : Reachable rt w) (hs : Steps rt w w') {x m : Addr}
    {tp : TokenProgram} {t : TokenData} (hx : x.canSign = false) (hv : w.bank.tokens (.ata x tp m) = some t)
    {c : Merkle.CreateCampaignAccts} (hc : c.campaign = x ∧ c.airdropTokenMint = m ∧ c.airdropTokenProgram = tp)
    (w'' : World) (root : Bytes32) (st ex : UInt64) (name cid : List UInt8) (agg : UInt64) (cnt : UInt32) :
    step rt w' (.merkle (.createCampaign c root st ex name cid agg cnt)) ≠ .ok w'' := by
  obtain ⟨rfl, rfl, rfl⟩ := hc
  intro h
  have ho : t.owner.canSign = false := by
    rcases hr.bankInv.tok_addr _ _ hv with ⟨k, hk⟩ | ⟨o, hk, ho⟩
    · cases hk
    · injection hk with h1
      rw [ho (by rw [← h1]; exact hx), ← h1]; exact hx
  obtain ⟨t', ht', _⟩ := account_forever hs hv ho
  obtain ⟨dm, b, l, h⟩ := createCampaign_step h
  obtain ⟨_, h1, _, _⟩ := openAccount_ok h.openVault
  rw [h.vaultAddr, ht'] at h1; cases h1

example := C71_campaign_blocked (reach2.steps (steps_after (ixs :=
    [.env (.createAta carol (.ata (.campaign alice root 0 900000 campaignName mint) tok mint)
      (.campaign alice root 0 900000 campaignName mint) tok mint)]) (by decide +kernel))) (.refl _)
  (x := .campaign alice root 0 900000 campaignName mint) (tp := tok) (m := mint)
  (t := ⟨tok, mint, .campaign alice root 0 900000 campaignName mint, 0, false⟩) rfl (by decide +kernel)
  (c := ⟨alice, mint, .campaign alice root 0 900000 campaignName mint,
    .ata (.campaign alice root 0 900000 campaignName mint) tok mint, tok⟩) ⟨rfl, rfl, rfl⟩
  world2 root 0 900000 campaignName [] 0 0

end Solsab.Props
