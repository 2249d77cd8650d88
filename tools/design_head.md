# Formal model of libbitcoin-system in Lean 4: design

(Generated by `tools/design.py` from MANIFEST.json, the citations in the model and the texts in tools/.)

## Method

* Every C++ function in scope is transcribed as a total Lean function over `List UInt8`, `Nat`, `Int`, `UInt32`/`UInt64`, `Option` and
  structures. Each definition carries a comment with the file and lines it models and the simplifications made.
* Fixed width arithmetic is modelled where it can wrap (`UInt32`, `UInt64`, explicit `% 2^k`); a natural number is used only where the comment says
  why no wrap can occur or where the wrap is written out.
* Stateful objects (byte and bit readers and writers, accumulators, chain state, script program, ciphers, caches) are state transitions; loops are
  structural recursion, folds, or recursion with fuel together with a theorem that the fuel does not run out. Reads outside of a container are
  not silently totalised: they give `none` or set a flag (`ub`), and theorems show that they are not reached, or a counterexample that they are.
* `lean/Verif/Model` holds the models, `Spec` the independent specifications (BIPs, RFCs, FIPS, reference client rules), `Lemmas` the proofs in
  between and `Props` the property theorems `Cnn_*` with a concrete case (`example`) meeting the hypotheses beside them.
* A theorem named `_partial` proves the property under a restriction that the full statement does not have; the missing part is stated beside it.
  In almost every such case the missing part is false of the code, and a theorem named `_counterexample` shows it.
* Wrong programs: `tools/mutate.py` applies realistic edits to the model in a scratch copy and rebuilds; `seeded/LOG.jsonl` has one line per edit.

## Trusted base

* Lean 4.33.0's kernel, and the axioms listed below: at most `propext`, `Classical.choice` and `Quot.sound`. Nothing of Mathlib beyond proved lemmas.
* The transcription from C++ to the model, by reading. No test against the compiled library was possible in the sandbox.
* The specifications in `Spec` say what the standards say.
* Parameters standing for code outside of the repository or outside of a property's reach, and the hypotheses on them:
  * libsecp256k1: `Spec/Secp.lean` is its documented contract over an arbitrary commutative group of prime order (`Curve`): serialisation and
    parsing of points are inverse, tweaks are group operations, invalid secrets are refused. `Lemmas/ToyCurve.lean` exhibits an instance, so the
    contract is consistent. Signature verification is an uninterpreted oracle in the script properties.
  * Hash functions are modelled and proved equal to their standards (C38, C58, C59); in the merkle, sighash and block properties they are arbitrary
    functions (the theorems hold for every function), with collision freedom a hypothesis only where a theorem names it.
  * Unicode normalisation (boost/ICU) of mnemonic words and passphrases, and stream formatting of integers.
* Not covered: memory allocation failure, exceptions, threads racing on one object, timing, compiler and hardware intrinsics.
