import Verif.Props.Create
/-!
# C73: what the NFTs say about themselves
-/

namespace Solsab.Props

open Lockup Spec Demo

/-- What a step can do to the metadata of a stream NFT. -/
theorem nftMeta_step {rt : Runtime} {w w' : World} {ix : Ix} (hr : Reachable rt w) (h : Did rt w ix w') (s : Addr)
    (n : Nat) : w'.metas (.streamNftMint s n) = w.metas (.streamNftMint s n) ∨
      (w.metas (.streamNftMint s n) = none ∧ w.lk.streams (streamAddr s n) = none) ∨
      (w'.metas (.streamNftMint s n) = none ∧ ∃ acc owner t m b, ix = .env (.metaplexBurn acc owner (.streamNftMint s n)) ∧
        MetaBurnOk w w' acc owner (.streamNftMint s n) t m b) := by
  cases h with
  | init hix h => left; rw [h.result]; dsimp only; rw [upd_ne _ _ (by simp)]
  | @create c p nd dm md cm k name b₁ b₂ b₃ b₄ b₆ l hix hp h =>
    by_cases he : Addr.streamNftMint s n = c.streamNftMint
    · right; left
      refine ⟨by rw [he]; exact h.noMeta, ?_⟩
      have := h.fresh
      rwa [h.streamAddr, ← he] at this
    · left; rw [h.result]; dsimp only
      rw [upd_ne _ _ (by simp), upd_ne _ _ he, upd_ne _ _ he]
  | withdraw hix h => left; rw [h.result]
  | cancel hix h => left; rw [h.result]
  | renounce hix h => left; rw [h.result]
  | collect hix _ h => left; rw [h.result]
  | miInit hix _ _ _ h => left; rw [h]
  | campaign _ hix h => left; rw [h.result]
  | claim hix h => left; rw [h.result]
  | clawback hix h => left; rw [h.result]
  | miCollect hix _ h => left; rw [h.result]
  | env i hix h =>
    rcases (env_ok h).metas with hm | ⟨acc, owner, mint, t, m, b, hi, hb⟩ | ⟨hm, _⟩
    · left; rw [hm]
    · have hmetas := congrArg World.metas hb.result
      dsimp only at hmetas
      have hc : ∀ c, m.collection = some c → c ≠ .streamNftMint s n := by
        intro c hc he
        cases hn : mint.isNftMint with
        | true => rw [(hr.collOK.nft hn hb.meta_eq).2.2.2 c hc] at he; cases he
        | false =>
          obtain ⟨k, hk⟩ := (hr.collOK.foreign hn hb.meta_eq).coll c hc
          rw [hk] at he; cases he
      have key : w'.metas (.streamNftMint s n) = upd w.metas mint none (.streamNftMint s n) := by
        rw [hmetas]
        cases hcc : m.collection with
        | none => rfl
        | some c =>
          dsimp only
          cases hcm : upd w.metas mint none c with
          | none => rfl
          | some cm => exact upd_ne _ _ (hc c hcc).symm
      by_cases he : mint = .streamNftMint s n
      · subst he
        right; right
        rw [key, upd_same]
        exact ⟨rfl, acc, owner, t, m, b, by rw [hix, hi], hb⟩
      · left; rw [key, upd_ne _ _ (Ne.symm he)]
    · left; exact (hm.kept hr.bankInv hr.collOK).1 _ rfl

/-- **C73**: in every state, the metadata of a stream NFT, as long as it exists, is exactly the published data
with the name made from the NFT's own address. -/
theorem C73_nft {rt : Runtime} {w : World} (hr : Reachable rt w) {s : Addr} {n : Nat} {m : Metadata}
    (hm : w.metas (.streamNftMint s n) = some m) :
    streamExists w s n = true ∧ ∃ text name, IsAddressText (rt.keyBytes (.streamNftMint s n)) text ∧
      IsNftName text name ∧ m = nftData name := by
  obtain ⟨s', n', sd, name, e, h1, h2, h3⟩ := hr.collOK.stream hm
  exact ⟨hr.exists_iff.2 ⟨sd, h1⟩, _, name, addressText _, nftName_spec h2, h3⟩

/-- **C73**: the only step that changes the metadata of a stream NFT is its holder burning the NFT, which
removes it. -/
theorem C73_only_burn {rt : Runtime} {w w' : World} (hr : Reachable rt w) {ix : Ix} (h : step rt w ix = .ok w')
    {s : Addr} {n : Nat} {m : Metadata} (hm : w.metas (.streamNftMint s n) = some m)
    (hne : w'.metas (.streamNftMint s n) ≠ some m) :
    w'.metas (.streamNftMint s n) = none ∧ ∃ account holder t,
      ix = .env (.metaplexBurn account holder (.streamNftMint s n)) ∧ holder.canSign = true ∧
      w.bank.tokens account = some t ∧ t.owner = holder ∧ t.mint = .streamNftMint s n ∧ t.amount = 1 := by
  rcases nftMeta_step hr (step_did h) s n with he | ⟨he, _⟩ | ⟨h0, acc, o, t, m', b, hix, hb⟩
  · rw [he] at hne; exact absurd hm hne
  · rw [he] at hm; cases hm
  · exact ⟨h0, acc, o, t, hix, hb.signs, hb.tok, hb.owner_eq, hb.mint_eq, hb.one⟩

/-- **C73**: through any history after the creation of the stream the metadata stays what it was, or is gone,
and once gone it never comes back (for anybody, with any content). -/
theorem C73_for_ever {rt : Runtime} {w w' : World} (hr : Reachable rt w) (hs : Steps rt w w') {s : Addr} {n : Nat}
    (hx : streamExists w s n = true) :
    w'.metas (.streamNftMint s n) = w.metas (.streamNftMint s n) ∨ w'.metas (.streamNftMint s n) = none := by
  induction hs with
  | refl => exact .inl rfl
  | tail ix h1 h2 ih =>
    have hr' := hr.steps h1
    obtain ⟨sd, hsd⟩ := hr.exists_iff.1 hx
    obtain ⟨sd', hsd', _⟩ := Steps.stream hr h1 hsd
    rcases nftMeta_step hr' (step_did h2) s n with he | ⟨_, he⟩ | ⟨h0, _⟩
    · rw [he]; exact ih
    · rw [hsd'] at he; cases he
    · exact .inr h0

/-- **C73**: from initialization on, the collection's metadata is exactly the published data; only its size
varies, and it is the number of stream NFTs that are not burned. -/
theorem C73_collection {rt : Runtime} {w : World} (hr : Reachable rt w) {nd : NftCollectionData}
    (hn : w.lk.nftCollectionData = some nd) :
    w.metas .nftCollectionMint = some (collectionData (total (liveNft w.metas) w.log)) := by
  obtain ⟨_, _, _, _, _, h⟩ := hr.collOK.present nd hn
  exact h

/-- **C73**: whatever metadata anybody creates or edits for other tokens, a token whose metadata shows the
verified membership in the Sablier collection is the NFT of a stream that the program created, and a token
that shows the Sablier collection as verified creator is the collection itself. -/
theorem C73_authentic {rt : Runtime} {w : World} (hr : Reachable rt w) {token : Addr} {m : Metadata}
    (hm : w.metas token = some m) :
    (m.collection = some .nftCollectionMint ↔ ∃ s n, token = .streamNftMint s n ∧ streamExists w s n = true) ∧
    ((∃ c ∈ m.info.creators, c.address = .nftCollectionMint ∧ c.verified = true) ↔ token = .nftCollectionMint) := by
  by_cases hc : token = .nftCollectionMint
  · subst hc
    rw [hr.collOK.coll hm]
    refine ⟨⟨fun h => (by cases h), fun ⟨_, _, h, _⟩ => by cases h⟩, fun _ => rfl, fun _ => ?_⟩
    exact ⟨⟨.nftCollectionMint, true, 100⟩, List.mem_cons_self .., rfl, rfl⟩
  rcases hr.collOK.metas token m hm hc with ⟨s, n, sd, name, rfl, h1, _, rfl⟩ | hf
  · refine ⟨⟨fun _ => ⟨s, n, rfl, hr.exists_iff.2 ⟨sd, h1⟩⟩, fun _ => rfl⟩, ?_, fun h => absurd h hc⟩
    rintro ⟨c, hc, _⟩; cases hc
  · obtain ⟨k, rfl⟩ := hf.addr
    refine ⟨⟨fun h => ?_, fun ⟨_, _, h, _⟩ => by cases h⟩, ?_, fun h => absurd h hc⟩
    · obtain ⟨j, hj⟩ := hf.coll _ h; cases hj
    · rintro ⟨c, hc, h1, h2⟩
      obtain ⟨j, hj⟩ := hf.creators c hc h2
      rw [h1] at hj; cases hj

/-! ### Concrete cases -/

/-- A copy-cat: somebody with a mint of their own gives it the name, symbol and image of a stream NFT, claims
the Sablier collection and lists it as creator. -/
def copycat : NftInfo :=
  { (nftData []).info with claimed := some .nftCollectionMint, creators := [⟨.nftCollectionMint, false, 100⟩],
                            updateAuthority := alice }

def fakeWorld : World := after world3
  [.env (.createMint 900 ⟨tok, 0, some alice, none, 0, none, none, false, false⟩),
   .env (.metaplexCreate (.key 900) alice "Sablier LL Stream #11111...11111".toList copycat false)]

theorem steps3fake : Steps rt world3 fakeWorld := steps_after (by decide +kernel)

example : (fakeWorld.metas (.key 900)).map (fun m => (m.collection, m.info.symbol)) = some (none, "LL_STREAM".toList) := by
  decide +kernel

example := C73_authentic (reach3.steps steps3fake) (token := .key 900)
  (m := ⟨"Sablier LL Stream #11111...11111".toList, none, none, copycat⟩) (by decide +kernel)

/-- Nobody can verify it, and nobody can edit the metadata of stream 1. -/
example : (step rt fakeWorld (.env (.metaplexVerify (.key 900) .nftCollectionMint alice))).toOption.isSome = false := by
  decide +kernel
example : (step rt fakeWorld (.env (.metaplexSign (.key 900) .nftCollectionMint))).toOption.isSome = false := by
  decide +kernel
example : (step rt fakeWorld (.env (.metaplexUpdate (nft 1) bob [] copycat none))).toOption.isSome = false := by
  decide +kernel

/-- The outside world can use Metaplex: alice makes a collection of her own and verifies her token in it. -/
example : (runAll rt fakeWorld
  [.env (.createMint 901 ⟨tok, 0, some alice, none, 0, none, none, false, false⟩),
   .env (.metaplexCreate (.key 901) alice [] { copycat with claimed := none } true),
   .env (.metaplexUpdate (.key 900) alice [] { copycat with claimed := some (.key 901) } none),
   .env (.metaplexVerify (.key 900) (.key 901) alice),
   .env (.metaplexUnverify (.key 900) (.key 901) alice)]).toOption.isSome = true := by decide +kernel

def demoName : List Char := "Sablier LL Stream #4rEh2...yXpbZ".toList

theorem demo_meta : world3.metas (.streamNftMint alice 1) = some (nftData demoName) := by decide +kernel

example := C73_nft reach3 (s := alice) (n := 1) (m := nftData demoName) demo_meta

/-- The holder burns the NFT of stream 1. -/
def burned : World := after world3 [.env (.metaplexBurn (.ata bob tok (nft 1)) bob (nft 1))]

example := C73_only_burn reach3 (w' := burned) (ix := .env (.metaplexBurn (.ata bob tok (nft 1)) bob (nft 1)))
  (step_after (by decide +kernel)) (s := alice) (n := 1) (m := nftData demoName) demo_meta (by decide +kernel)

example := C73_for_ever reach3 ((steps_after (by decide +kernel) : Steps rt world3 burned)) (s := alice) (n := 1)
  (by decide +kernel)

example := C73_collection reach8 (nd := ⟨2, 255⟩) (by decide +kernel)
example : total (liveNft world8.metas) world8.log = 2 := by decide +kernel

end Solsab.Props
