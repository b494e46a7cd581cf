#!/usr/bin/env python3
"""Bounds for the Gentleman-Sande transform with the tables of the library: writes
lean/Verif/Proofs/RedWideData.lean.  The bounds are untrusted: Lean checks them."""
Q = 12289
LIB = [(4, 1212), (8, 1002), (9, 1003), (10, 1014)]
START = 49786

def absw(psi, e):
    w = 8193 * pow(psi, e, Q) % Q
    return w if w <= 6144 else Q - w

def gs_rows(k, psi):
    n = 1 << k
    row = [START] * n
    rows = [row]
    for m in range(k):
        h = 1 << (k - 1 - m)
        new = [0] * n
        for b in range(1 << m):
            for j in range(h):
                s = 2 * h * b + j
                z = row[s] + row[s + h]
                new[s] = z
                # entry h + j of the table in standard order
                w = absw(psi, 2 * j * (n // (2 * h)))
                new[s + h] = z if j == 0 else -(-(z * w + 50323455) // 4096)
        rows.append(new)
        row = new
    return rows

def main():
    out = ["/-",
           "Generated by tools/genwide.py.  Row `m` of the list for `k` packs, 32 bits each, bounds for the elements of",
           "the array before round `m` of the Gentleman-Sande transform of size `2^k`, in standard order, with the table of",
           "the library.  Nothing relies on how these numbers were found: `Verif/Proofs/RedWide.lean` checks them.",
           "-/", "", "namespace NttRed", ""]
    for k, psi in LIB:
        rows = gs_rows(k, psi)
        print(k, max(rows[-1]), max(max(r) for r in rows))
        for m, r in enumerate(rows):
            v = sum(x << (32 * i) for i, x in enumerate(r))
            out.append(f"def gsRow{k}_{m} : Nat := 0x{v:x}")
        out.append("")
    out.append("/-- The rows for size `2^k`. -/")
    out.append("def gsRow : Nat → Nat → Nat")
    for k, psi in LIB:
        for m in range(k + 1):
            out.append(f"  | {k}, {m} => gsRow{k}_{m}")
    out.append("  | _, _ => 0")
    out += ["", "end NttRed", ""]
    open("/verif/lean/Verif/Proofs/RedWideData.lean", "w").write("\n".join(out))
main()
