import Verif.Spec.Backing
import Verif.Props.Status
/-!
# C101: all obligations together are backed by tokens that nobody else holds
-/

namespace Solsab.Props

open Lockup Spec Demo

/-- **C101**: take any different streams in the same plain token, and any other accounts. What all these streams together
still owe, plus what all the other accounts hold, is at most the supply of the token (a `u64`): no token backs two streams,
and none that backs a stream is at the same time in somebody's account. -/
theorem C101_backed {rt : Runtime} {w : World} (hr : Reachable rt w) {m : Addr} {md : MintData}
    (hm : w.bank.mints m = some md) (hp : md.Plain) {streams : List (Addr × Nat)} (hn : streams.Nodup)
    (hs : ∀ p ∈ streams, ∃ sd, w.lk.streams (streamAddr p.1 p.2) = some sd ∧ sd.depositedTokenMint = m)
    {others : List Addr} (ho : others.Nodup)
    (hd : ∀ a ∈ others, ∀ p ∈ streams, a ≠ .ata (streamAddr p.1 p.2) md.program m) :
    (streams.map (unpaid w)).sum + (others.map (heldIn w m)).sum ≤ md.supply ∧ md.supply < 2 ^ 64 := by
  obtain ⟨hlt, hsum⟩ := hr.bankInv.supply m md hm
  refine ⟨?_, hlt⟩
  let vault : Addr × Nat → Addr := fun p => .ata (streamAddr p.1 p.2) md.program m
  have hinj : ∀ p q, vault p = vault q → p = q := by
    intro p q h
    have h1 := streamAddr_inj (by simpa [vault] using h : streamAddr p.1 p.2 = streamAddr q.1 q.2)
    exact Prod.ext h1.1 h1.2
  have hnd : (streams.map vault ++ others).Nodup := by
    rw [List.nodup_append]
    refine ⟨hn.map (fun p q h => hinj p q h), ho, ?_⟩
    intro a ha b hb e
    obtain ⟨p, hpm, rfl⟩ := List.mem_map.1 ha
    exact hd b hb p hpm e.symm
  have hkey := hsum (streams.map vault ++ others).toFinset
  rw [List.sum_toFinset _ hnd, List.map_append, List.sum_append, List.map_map] at hkey
  have e1 : others.map (heldIn w m) = others.map (w.bank.bal m) := rfl
  have e2 : (streams.map (unpaid w)).sum ≤ (streams.map (w.bank.bal m ∘ vault)).sum := by
    refine List.sum_le_sum fun p hpm => ?_
    obtain ⟨sd, hsd, rfl⟩ := hs p hpm
    obtain ⟨md', t, hv⟩ := hr.vaultsOK _ _ hsd
    have e := hv.mint; rw [hm] at e; cases e
    have := hv.solvent hp
    simp only [unpaid, hsd, Function.comp, Bank.bal, vault, hv.vault, hv.tmint, if_true]
    omega
  rw [e1]
  omega

/-- The two streams of the demonstration, the sender's and a recipient's account and the vault of an airdrop in the same
token. -/
example : ([(alice, 1), (alice, 2)].map (unpaid world4)).sum +
      ([ataOf alice, ataOf bob, campVault].map (heldIn world4 Demo.mint)).sum ≤ 1000000 :=
  (C101_backed reach4 (m := Demo.mint) (md := { plainMint with supply := 1000000 }) (by decide +kernel) (by decide)
    (by decide) (by decide +kernel) (by decide) (by decide +kernel)).1

example : [(alice, 1), (alice, 2)].map (unpaid world4) = [333, 700] := by decide +kernel
example : [ataOf alice, ataOf bob, campVault].map (heldIn world4 Demo.mint) = [997967, 700, 300] := by decide +kernel

/-- **C101**, one stream: as long as a stream in a plain token is not depleted, it owes something and the supply of its
token is at least that. (So not even the close authority of a Token-2022 mint, which the model does not have, could
close the mint: the token program refuses as long as there is supply.) -/
theorem C101_in_use {rt : Runtime} {w : World} (hr : Reachable rt w) {s : Addr} {n : Nat} {sd : StreamData}
    {md : MintData} (hs : w.lk.streams (streamAddr s n) = some sd) (hm : w.bank.mints sd.depositedTokenMint = some md)
    (hp : md.Plain) (hnd : statusOf rt w (viewOf s n) ≠ .ok .depleted) :
    0 < unpaid w (s, n) ∧ unpaid w (s, n) ≤ md.supply := by
  have hb := (C101_backed hr hm hp (streams := [(s, n)]) (by simp)
    (by intro p h; cases List.mem_singleton.1 h; exact ⟨sd, hs, rfl⟩) (others := []) (by simp) (by simp)).1
  simp only [List.map_cons, List.map_nil, List.sum_cons, List.sum_nil, Nat.add_zero] at hb
  refine ⟨?_, hb⟩
  have hok := C20_paid_le_deposit hr hs
  obtain ⟨e1, e2, hle, -⟩ := hok
  obtain ⟨st, _, hst, _, hdep, -⟩ := C22_status_exact hr hs
  have hne : ¬ st = .depleted := fun h => hnd (h ▸ hst)
  rw [hdep] at hne
  simp only [unpaid, hs]
  omega

example := C101_in_use reach4 (s := alice) (n := 1)
  (sd := ⟨⟨100, 200, 1000, 467, 200⟩, Demo.mint, 255, 1, false, false, ⟨3000, 6000, 2000⟩, alice, true⟩)
  (md := { plainMint with supply := 1000000 }) (by decide +kernel) (by decide +kernel) (by decide) (by decide +kernel)

end Solsab.Props
