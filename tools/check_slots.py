#!/usr/bin/env python3
"""Compares the slot tables of lean/Verif/Bytes/Wire.lean with the #[derive(Accounts)] structs of /repo."""
import re, sys, os
R = "/repo/programs/"
T = {  # table -> (file, struct)
 "cancelSlots": ["lockup/src/instructions/cancel.rs:Cancel"],
 "collectFeesSlots": ["lockup/src/instructions/collect_fees.rs:CollectFees", "merkle_instant/src/instructions/collect_fees.rs:CollectFees"],
 "createSlots": ["lockup/src/instructions/create_with_timestamps.rs:CreateWithTimestamps"],
 "lockupInitializeSlots": ["lockup/src/instructions/initialize.rs:Initialize"],
 "renounceSlots": ["lockup/src/instructions/renounce.rs:Renounce"],
 "withdrawSlots": ["lockup/src/instructions/withdraw.rs:Withdraw"],
 "streamViewSlots": ["lockup/src/instructions/view/stream_view.rs:StreamView"],
 "streamExistsSlots": ["lockup/src/instructions/view/stream_exists.rs:StreamExists"],
 "treasuryViewSlots": ["lockup/src/instructions/view/treasury_view.rs:TreasuryView", "merkle_instant/src/instructions/view/treasury_view.rs:TreasuryView"],
 "feeViewSlots": ["lockup/src/instructions/view/withdrawal_fee_in_lamports.rs:WithdrawalFeeInLamports", "merkle_instant/src/instructions/view/claim_fee_in_lamports.rs:ClaimFeeInLamports"],
 "claimSlots": ["merkle_instant/src/instructions/claim.rs:Claim"],
 "clawbackSlots": ["merkle_instant/src/instructions/clawback.rs:Clawback"],
 "createCampaignSlots": ["merkle_instant/src/instructions/create_campaign.rs:CreateCampaign"],
 "merkleInitializeSlots": ["merkle_instant/src/instructions/initialize.rs:Initialize"],
 "campaignViewSlots": ["merkle_instant/src/instructions/view/campaign_view.rs:CampaignView"],
 "hasClaimedSlots": ["merkle_instant/src/instructions/view/has_claimed.rs:HasClaimed"],
}
def rust(spec):
    f, name = spec.split(":")
    s = open(R + f).read()
    s = re.sub(r"//[^\n]*", "", s)
    i = s.index("pub struct " + name)
    i = s.index("{", i) + 1
    d, j = 1, i
    while d:
        d += {"{": 1, "}": -1}.get(s[j], 0); j += 1
    body = s[i:j-1]
    out = []
    for m in re.finditer(r"((?:#\[(?:[^\[\]]|\[[^\[\]]*\])*\]\s*)*)pub (\w+): ((?:[^,<]|<(?:[^<>]|<[^<>]*>)*>)*),", body):
        attr, fld, ty = m.groups()
        # the outermost attribute list only: mut / init / init_if_needed as its own item
        items = [x.strip() for x in re.sub(r"#\[account\(|\)\]", ",", attr).split(",")]
        w = any(x in ("mut", "init", "init_if_needed") for x in items)
        if "Signer" in ty: k = "signer"
        elif "TokenInterface" in ty: k = "tok"
        elif "Program<" in ty or "Sysvar" in ty: k = "prog:" + re.search(r"(\w+)>$", ty.strip()).group(1)
        else: k = "-"
        out.append((fld, w, k))
    return out
def lean():
    s = open(os.path.join(os.path.dirname(os.path.abspath(__file__)), "../lean/Verif/Bytes/Wire.lean")).read()
    P = {"associatedToken": "AssociatedToken", "system": "System", "tokenMetadata": "Metadata", "rent": "Rent"}
    res = {}
    for m in re.finditer(r"def (\w+Slots) : List Slot :=\s*\[(.*?)\]\n", s, re.S):
        out = []
        for x in re.finditer(r'⟨"(\w+)", (true|false), \.signer⟩|(ro|rw|tok) "(\w+)"|prog "(\w+)" Ids\.(\w+)', m.group(2)):
            g = x.groups()
            if g[0]: out.append((g[0], g[1] == "true", "signer"))
            elif g[2]: out.append((g[3], g[2] == "rw", "tok" if g[2] == "tok" else "-"))
            else: out.append((g[4], False, "prog:" + P[g[5]]))
        res[m.group(1)] = out
    return res
L = lean(); bad = 0
for t, specs in T.items():
    for sp in specs:
        a = rust(sp)
        if a != L[t]:
            bad += 1
            print("DIFF", t, sp)
            for x, y in zip(a + [None] * 30, L[t] + [None] * 30):
                if x != y: print("   ", x, y)
            
print("tables", len(T), "unmatched", bad, "not listed", set(L) - set(T))
sys.exit(1 if bad else 0)
