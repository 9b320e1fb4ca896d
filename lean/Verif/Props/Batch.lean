import Verif.Spec.Batch
import Verif.Props.Squat
import Verif.Props.RentRule
/-!
# C94: creating many streams
-/

namespace Solsab.Props

open Spec Lockup Demo

theorem opens_create (rt : Runtime) (w : World) (p m : Addr) (tp ntp : TokenProgram) (o : Order) :
    ((opens rt w (o.create p m tp ntp)).map fun x => charge rt x.1 + max (rt.rent x.2) 1).sum =
      createRent rt ntp m tp := by
  have e1 : tokenSize rt (.streamNftMint o.sender o.salt.val) ntp = World.tokenSpace rt .nftCollectionMint ntp := by
    cases ntp <;> rfl
  have e2 : tokenSize rt m tp = World.tokenSpace rt m tp := (tokenSize_eq rt m tp).symm
  have h1 : ∀ s r : Addr, ∀ n : Nat, ∀ a, charge rt (.ata s a r) = 0 := fun _ _ _ _ => rfl
  unfold Order.create opens nftAccounts createRent metaplexRent
  simp only [createFor, List.cons_append, List.nil_append, List.map_cons, List.map_nil, List.sum_cons, List.sum_nil, e1, e2]
  simp only [charge, streamAddr, World.mintSpace, show streamDataSpace = 156 from rfl]
  omega

/-- What one creation leaves of the funds and of the free places. -/
theorem place {rt : Runtime} {w : World} (hr : Reachable rt w) {p m : Addr} {md : MintData} {ntp : TokenProgram}
    {o : Order} {os : List Order} (hf : FundedForAll rt w p m md ntp (o :: os)) (hv : o.Valid)
    (hfree : o.Free w m md.program) :
    ∃ w' nd, step rt w (o.create p m md.program ntp) = .ok w' ∧
      CreateEffect rt w w' (createFor p o.sender o.recipient m md.program ntp o.salt.val) o.salt.val o.deposit.toNat
        o.start.toNat o.cliff.toNat o.end.toNat o.startUnlock.toNat o.cliffUnlock.toNat o.cancelable md nd ∧
      w.lamports p ≤ w'.lamports p + createRent rt ntp m md.program ∧
      m ≠ o.nft ∧ FundedForAll rt w' p m md ntp os := by
  obtain ⟨nd, h1, h2⟩ := hf.collection
  obtain ⟨t, h3, h4, h5, h6⟩ := hf.tokens
  have hlam := hf.lamports
  simp only [List.length_cons, List.map_cons, List.sum_cons] at h2 h5 hlam
  rw [Nat.succ_mul] at hlam
  have hone : FundedFor rt w p m md ntp o.deposit.toNat :=
    ⟨⟨nd, h1, by omega⟩, hf.mint, hf.signer, ⟨t, h3, h4, by unfold Order.cost at h5; omega, h6⟩, hf.unguarded, hf.flows, hf.thawed, by omega⟩
  obtain ⟨_, hc⟩ := hone.ready o.recipient hfree.unused hfree.vaultUnused
  obtain ⟨w', hw⟩ := C56_create_succeeds hr hc o.cancelable hv h3 (by unfold Order.cost at h5; omega) h6 hf.unguarded hf.flows hf.thawed
  obtain ⟨md', nd', he⟩ := C27_create_effect hr hw
  have hmd : md' = md := by
    have := he.mint
    rw [show (createFor p o.sender o.recipient m md.program ntp o.salt.val).depositTokenMint = m from rfl, hf.mint] at this
    cases this; rfl
  subst hmd
  have hnd : nd' = nd := by have := he.collection; rw [h1] at this; cases this; rfl
  subst hnd
  have hne : m ≠ o.nft := by
    rintro rfl
    have := he.nftFresh
    rw [show (createFor p o.sender o.recipient o.nft md'.program ntp o.salt.val).sender = o.sender from rfl] at this
    have h := hf.mint
    unfold Order.nft at h
    rw [h] at this; cases this
  have hrent := (C60_rent_only (ix := o.create p m md'.program ntp) (p := p) rfl rfl hw).2.left
  rw [opens_create] at hrent
  obtain ⟨t', k1, _, _, k2⟩ := he.paid
  replace k1 : w.bank.tokens (.ata p md'.program m) = some t' := k1
  rw [h3] at k1; cases k1
  have hgd : (w'.settings (.ata p md'.program m)).cpiGuard = false := by
    rw [(step_did hw).settings rfl]; exact hf.unguarded
  refine ⟨w', nd', hw, he, hrent, hne, ⟨_, he.counter, ?_⟩, ?_, hf.signer, ⟨_, k2, h4, ?_, h6⟩, hgd, hf.flows, hf.thawed, ?_⟩
  · show nd'.totalSupply + 1 + os.length < _
    omega
  · rw [he.mints m hne]; exact hf.mint
  · show _ ≤ t.amount - o.deposit.toNat
    unfold Order.cost at h5
    unfold Order.cost
    omega
  · omega

theorem Order.stream_inj {o o' : Order} (h : (o.sender, o.salt) ≠ (o'.sender, o'.salt)) : o.stream ≠ o'.stream := by
  intro e
  obtain ⟨h1, h2⟩ := streamAddr_inj e
  exact h (Prod.ext h1 (Fin.ext h2))

theorem Order.nft_inj {o o' : Order} (h : (o.sender, o.salt) ≠ (o'.sender, o'.salt)) : o.nft ≠ o'.nft := by
  intro e
  unfold Order.nft at e
  injection e with h1 h2
  exact h (Prod.ext h1 (Fin.ext h2))

theorem place_free {rt : Runtime} {w w₁ : World} (hr : Reachable rt w) (hr₁ : Reachable rt w₁) {p m : Addr} {md : MintData}
    {ntp : TokenProgram} {o o' : Order} {nd : NftCollectionData}
    (he : CreateEffect rt w w₁ (createFor p o.sender o.recipient m md.program ntp o.salt.val) o.salt.val o.deposit.toNat
        o.start.toNat o.cliff.toNat o.end.toNat o.startUnlock.toNat o.cliffUnlock.toNat o.cancelable md nd)
    (hs : p.canSign = true) (hne : m ≠ o.nft) (hdiff : (o'.sender, o'.salt) ≠ (o.sender, o.salt))
    (hx : o'.Free w m md.program) : o'.Free w₁ m md.program := by
  have hstr : w₁.lk.streams = upd w.lk.streams o.stream (some (o.data rt m)) := he.streams
  have hpne : ∀ x : Addr, x.canSign = false → p ≠ x := by
    intro x hx e; rw [e, hx] at hs; cases hs
  constructor
  · cases h : streamExists w₁ o'.sender o'.salt.val with
    | false => rfl
    | true =>
      obtain ⟨sd, k⟩ := hr₁.exists_iff.1 h
      replace k : w₁.lk.streams o'.stream = some sd := k
      rw [hstr, upd_ne _ _ (Order.stream_inj hdiff)] at k
      have := hr.exists_iff.2 ⟨sd, k⟩
      rw [hx.unused] at this; cases this
  · rw [he.tokens]
    · exact hx.vaultUnused
    · intro e
      injection e with e1 _ _
      exact hpne _ rfl e1.symm
    · intro e
      injection e with e1 _ _
      exact Order.stream_inj hdiff e1
    · intro e
      injection e with _ _ e1
      exact hne e1

/-- A creation carries out its order. -/
theorem place_done {rt : Runtime} {w w₁ : World} {p m : Addr} {md : MintData}
    {ntp : TokenProgram} {o : Order} {nd : NftCollectionData}
    (he : CreateEffect rt w w₁ (createFor p o.sender o.recipient m md.program ntp o.salt.val) o.salt.val o.deposit.toNat
        o.start.toNat o.cliff.toNat o.end.toNat o.startUnlock.toNat o.cliffUnlock.toNat o.cancelable md nd) :
    o.Done rt w₁ m md ntp := by
  refine ⟨?_, he.vault, he.nftHeld⟩
  have hstr : w₁.lk.streams = upd w.lk.streams o.stream (some (o.data rt m)) := he.streams
  rw [hstr]; exact upd_same ..

/-- And leaves the others carried out. -/
theorem place_keeps {rt : Runtime} {w w₁ : World} {p m : Addr} {md : MintData}
    {ntp : TokenProgram} {o o' : Order} {nd : NftCollectionData}
    (he : CreateEffect rt w w₁ (createFor p o.sender o.recipient m md.program ntp o.salt.val) o.salt.val o.deposit.toNat
        o.start.toNat o.cliff.toNat o.end.toNat o.startUnlock.toNat o.cliffUnlock.toNat o.cancelable md nd)
    (hs : p.canSign = true) (hne : m ≠ o.nft) (hne' : m ≠ o'.nft) (hdiff : (o'.sender, o'.salt) ≠ (o.sender, o.salt))
    (hd : o'.Done rt w m md ntp) : o'.Done rt w₁ m md ntp := by
  have hpne : ∀ x : Addr, x.canSign = false → p ≠ x := by
    intro x hx e; rw [e, hx] at hs; cases hs
  have hstr : w₁.lk.streams = upd w.lk.streams o.stream (some (o.data rt m)) := he.streams
  refine ⟨?_, ?_, ?_⟩
  · rw [hstr, upd_ne _ _ (Order.stream_inj hdiff)]; exact hd.stream
  · rw [he.tokens]
    · exact hd.vault
    · intro e; injection e with e1; exact hpne _ rfl e1.symm
    · intro e; injection e with e1; exact Order.stream_inj hdiff e1
    · intro e; injection e with _ _ e1; exact hne e1
  · rw [he.tokens]
    · exact hd.nft
    · intro e; injection e with _ _ e1; exact hne' e1.symm
    · intro e; injection e with _ _ e1; exact hne' e1.symm
    · intro e; injection e with _ _ e1; exact Order.nft_inj hdiff e1

theorem batch {rt : Runtime} {p m : Addr} {md : MintData} {ntp : TokenProgram} (orders : List Order) :
    ∀ {w : World}, Reachable rt w → FundedForAll rt w p m md ntp orders → (∀ o ∈ orders, o.Valid) →
      (∀ o ∈ orders, o.Free w m md.program) → (orders.map fun o => (o.sender, o.salt)).Nodup →
      ∃ w', runAll rt w (orders.map (Order.create p m md.program ntp)) = .ok w' ∧ BatchDone rt w w' p m md ntp orders ∧
        ∀ o ∈ orders, m ≠ o.nft := by
  induction orders with
  | nil =>
    intro w hr hf _ _ _
    obtain ⟨t, h, _⟩ := hf.tokens
    obtain ⟨nd, h', _⟩ := hf.collection
    exact ⟨w, rfl, ⟨fun o ho => (by cases ho), ⟨t, h, h⟩, by simp, ⟨nd, h', h'⟩, fun _ _ => rfl, fun _ _ _ => rfl,
      fun _ _ => rfl, rfl, rfl, rfl⟩, fun o ho => (by cases ho)⟩
  | cons o os ih =>
    intro w hr hf hv hfree hnd
    obtain ⟨w₁, nd, hs, he, hrent, hne, hf₁⟩ := place hr hf (hv o (by simp)) (hfree o (by simp))
    rw [List.map_cons, List.nodup_cons] at hnd
    have hdiff : ∀ o' ∈ os, (o'.sender, o'.salt) ≠ (o.sender, o.salt) := by
      intro o' h' e
      exact hnd.1 (List.mem_map.2 ⟨o', h', e⟩)
    have hr₁ := hr.step hs
    have hstr : w₁.lk.streams = upd w.lk.streams o.stream (some (o.data rt m)) := he.streams
    have hpne : ∀ x : Addr, x.canSign = false → p ≠ x := by
      intro x hx e; have := hf.signer; rw [e, hx] at this; cases this
    have hfree₁ : ∀ o' ∈ os, o'.Free w₁ m md.program := fun o' h' =>
      place_free hr hr₁ he hf.signer hne (hdiff o' h') (hfree o' (by simp [h']))
    obtain ⟨w', hrun, hb, hms⟩ := ih hr₁ hf₁ (fun o' h' => hv o' (by simp [h'])) hfree₁ hnd.2
    obtain ⟨t, k1, _, k2, k3⟩ := he.paid
    obtain ⟨t₁, k4, k5⟩ := hb.paid
    replace k3 : w₁.bank.tokens (.ata p md.program m) = some { t with amount := t.amount - o.deposit.toNat } := k3
    rw [k3] at k4; cases k4
    obtain ⟨nd₁, c1, c2⟩ := hb.counter
    rw [he.counter] at c1; cases c1
    have hvne : ∀ x : Order, Addr.ata x.stream md.program m ≠ .ata p md.program m := by
      intro x e; injection e with e1; exact hpne _ rfl e1.symm
    refine ⟨w', bind_ok.2 ⟨w₁, hs, hrun⟩, ⟨?_, ⟨t, k1, ?_⟩, ?_, ⟨nd, he.collection, ?_⟩, ?_, ?_, ?_, ?_, ?_, ?_⟩,
      List.forall_mem_cons.2 ⟨hne, hms⟩⟩
    · intro x hx
      rcases List.mem_cons.1 hx with rfl | hx
      · refine ⟨?_, ?_, ?_⟩
        · rw [hb.streams _ fun o' h' => (Order.stream_inj (hdiff o' h')).symm, hstr]
          exact upd_same ..
        · rw [hb.tokens _ (hvne x) fun o' h' => ⟨?_, ?_⟩]
          · exact he.vault
          · intro e; injection e with e1; exact Order.stream_inj (hdiff o' h') e1.symm
          · intro e
            injection e with _ _ e1
            exact hms o' h' e1
        · rw [hb.tokens]
          · exact he.nftHeld
          · intro e; injection e with _ _ e1; exact hne e1.symm
          · intro o' h'
            refine ⟨?_, ?_⟩
            · intro e; injection e with _ _ e1; exact hne e1.symm
            · intro e; injection e with _ _ e1; exact Order.nft_inj (hdiff o' h') e1.symm
      · exact hb.done x hx
    · rw [k5]
      simp only [List.map_cons, List.sum_cons, Nat.sub_sub]
      rfl
    · have := hb.rent
      simp only [List.length_cons, Nat.succ_mul]
      omega
    · rw [c2]
      simp only [List.length_cons]
      congr 2
      omega
    · intro a ha
      rw [hb.streams a fun o' h' => ha o' (by simp [h']), hstr]
      exact upd_ne _ _ (ha o (by simp))
    · intro a ha hx
      rw [hb.tokens a ha fun o' h' => hx o' (by simp [h'])]
      exact he.tokens a ha (hx o (by simp)).1 (hx o (by simp)).2
    · intro a ha
      rw [hb.mints a fun o' h' => ha o' (by simp [h']), he.mints a (ha o (by simp))]
    · rw [hb.treasury, he.treasury]
    · rw [hb.merkle, he.merkle]
    · rw [hb.clock, he.clock]

/-- **C94**: whoever has the deposits and the rent can open any list of streams, one after the other, in any state
that can be reached: for any senders, recipients and valid terms, different salts that are free. Every one of them is
created as asked for, and nothing else changes. -/
theorem C94_batch {rt : Runtime} {w : World} (hr : Reachable rt w) {p m : Addr} {md : MintData} {ntp : TokenProgram}
    {orders : List Order} (hf : FundedForAll rt w p m md ntp orders) (hv : ∀ o ∈ orders, o.Valid)
    (hfree : ∀ o ∈ orders, o.Free w m md.program) (hd : (orders.map fun o => (o.sender, o.salt)).Nodup) :
    ∃ w', runAll rt w (orders.map (Order.create p m md.program ntp)) = .ok w' ∧ BatchDone rt w w' p m md ntp orders := by
  obtain ⟨w', h1, h2, _⟩ := batch orders hr hf hv hfree hd
  exact ⟨w', h1, h2⟩

/-- Two streams for two recipients, in alice's name and in carol's. -/
def demoOrders : List Order :=
  [⟨alice, bob, 7, 1000, 2000, 3000, 6000, 100, 200, true⟩, ⟨carol, carol, 7, 500, 2000, 0, 6000, 0, 0, false⟩]

theorem demoFunded : FundedForAll rt world1 alice Demo.mint { plainMint with supply := 1000000 } .token demoOrders := by
  constructor
  case collection => exact ⟨⟨2, 255⟩, by decide +kernel, by decide⟩
  case tokens => exact ⟨⟨tok, Demo.mint, alice, 998300, false⟩, by decide +kernel, rfl, by decide +kernel, rfl⟩
  all_goals decide +kernel

example := C94_batch reach1 demoFunded
  (by intro o ho; simp only [demoOrders, List.mem_cons, List.not_mem_nil, or_false] at ho
      rcases ho with rfl | rfl <;> unfold Order.Valid ValidTerms <;> decide)
  (by intro o ho; simp only [demoOrders, List.mem_cons, List.not_mem_nil, or_false] at ho
      rcases ho with rfl | rfl <;> constructor <;> decide +kernel)
  (by decide +kernel)

end Solsab.Props
