#!/usr/bin/env python3
"""Writes DESIGN.md: prose below, property table from properties.jsonl and MANIFEST.json."""
import json, os
root = os.path.dirname(os.path.dirname(os.path.abspath(__file__)))
props = [json.loads(l) for l in open(os.path.join(root, "properties.jsonl"))]
man = {c["property"]: c for c in json.load(open(os.path.join(root, "MANIFEST.json")))["claims"]}
HOW = {
 "C01": "whole pipeline: scanner refinement, Clinger fast path, Eisel-Lemire with the table certificate, big-integer slow path, all shown equal to one rounding relation (`RN`), then `RN` = `RoundsTo`",
 "C02": "as C01, binary32 constants", "C03": "as C01, bfloat16 constants",
 "C04": "as C01; false on nine subnormal ties, so: exact characterisation (`_sharp`), witness, and the rest as `_partial`",
 "C05": "the error-code logic on top of C01; false for float16 on the fast path: exact characterisation and witness",
 "C06": "index 0 of the rounding relation = magnitude at most half the smallest subnormal",
 "C07": "corollary of C01 for the digit list; the truncation/sticky-digit logic of `parse_mantissa` is refined to exact big-integer values",
 "C08": "sign bit handling of `to_float` and of the fast path", "C09": "uniqueness of `RoundsTo`", "C10": "monotonicity of rounding",
 "C11": "spacing of floats; any numeral close enough to a float parses to it", "C12": "refinement of the scanner to a reference scanner, which is the maximal munch of the declarative grammar",
 "C13": "same", "C14": "case analysis of the driver", "C15": "grammar", "C16": "grammar; JSON text characterised by a separate predicate", "C17": "grammar", "C18": "grammar",
 "C19": "evaluation of the 256-entry table plus induction over the string; signed negative wide units excluded (finding c)", "C20": "word-wise comparison = letter-wise comparison, for each character width and endianness",
 "C21": "driver", "C22": "renaming of the decimal point", "C23": "locality of the scanner", "C24": "the model never returns `error`", "C25": "same for the integer overloads",
 "C26": "length bounds along `digit_comp`: every big integer stays below the capacity of 4000 bits", "C27": "refinement of `parse_int_string`", "C28": "false for 64-bit types: witness, exact set of undetected literals, `_partial` where sound",
 "C29": "exact characterisation of soundness per base by evaluating all 35 bases, lifted to all literals", "C30": "maximal run of digits", "C31": "grammar of integers",
 "C32": "from `compute_float` and the fast path; float16 ties: exact", "C33": "same; INT64_MIN is undefined behaviour (witness), 128-bit significands wrap", "C34": "C01 + C32 + uniqueness", "C35": "both results equal the configuration-free specification",
 "C36": "same", "C37": "same", "C38": "same option word after `adjust_for_feature_macros`", "C39": "wrapper; false on invalid_argument (witness)", "C40": "fast paths refined to the generic loop",
 "C41": "byte-lane induction on words, for all words", "C42": "arithmetic of the saturating accumulator; limit shown by witness", "C43": "printing function in the specification, inverse to parsing", "C44": "bit patterns of results",
 "C45": "both paths refine the same numeral", "C46": "configuration-free specification of integers", "C47": "same", "C48": "same", "C49": "locality", "C50": "if-and-only-if with the model-free `FloatCall`", "C51": "if-and-only-if with the model-free `IntCall`",
 "C52": "exact behaviour of float16", "C53": "if-and-only-if with the exact (wrapping) specification", "C54": "128-bit types: exact behaviour", "C55": "C50 without length bound, with the exponent clipping made part of the specification", "C56": "determinism of the specification on the consumed prefix",
 "C57": "error bounds from the rounding relation", "C58": "block-wise comparison by induction over blocks", "C59": "monotonicity of the grammar in the format word", "C60": "C53 against C50", "C61": "`from_chars_advanced(pns)` on arbitrary structures",
 "C62": "the reference scanner looks at a unit only through tests that no unit above 127 passes; induction over the skipped units", "C63": "refinement of the scanner, error branches included, to the model-free `Diagnosis`", "C64": "induction over the list, with C23 and C49 for one step", "C65": "bitwise and/or distribute; congruence through the scanner and the three places that test a flag; the text theorem through C50", "C66": "the printed texts are defined in Spec/Print.lean without reference to the model; their value is computed by induction over the digits, then C11 and C06", "C67": "two short decimals are multiples of a common power of ten, hence relatively far apart; the error bound C57 is smaller than half of that", "C68": "A value-and-normalisation invariant for each loop with the capacity test, by induction over the limbs; failure is shown to be equivalent to the value reaching 2^(bits*capacity) because a normalised vector of full length is at least 2^(bits*(capacity-1)).", "C69": "Binary search invariant for the leading zeros; for trailing zeros every word is 2^j times an odd number and each stage acts on j; schoolbook multiplication by splitting into 32-bit halves; byte decomposition of a word.", "C70": "Refinement: the vector in memory holds a list; each memory operation is shown to end, without a fault, in a vector that holds the result of the list operation, or to report failure when it does. The slow path and the API are then rebuilt on the memory operations and shown to return what the list-level model returns whenever that one succeeds, which C24 says it always does.", "C71": "The complete specifications C50, C50_float16, C53 and C54 at the options the short overload passes; the decimal point '.' meets the condition on the point for every format word.", "C72": "bit extensionality for the operators; the complete specifications C53 and C55 for the conversion", "C73": "C50 / C51 with an empty rest; maximal munch is vacuous at the end of the text", "C74": "the reference scanner is proved equivalent to Greedy for every grammar; the digit count of the code is computed exactly for a digit as point", "C75": "a counter is added to every loop of the model; a rule for each function (same outcome, bound on the steps, bound on sizes) composed along the call graph; the capacity of the big integers and the 769-digit limit bound the arithmetic", "C76": "as C75, for the integer parser", "C77": "while loops in closed form (log2, truncation, normalisation), then kernel evaluation of all entries", "C78": "invariants of the Euclidean algorithm and its convergents; kernel evaluation of the scripts on the whole table", "C79": "From the complete specifications C74 (floating point), C53 and C54 (integers): every condition that `Greedy`, `InfText` and `Literal` put on the rest of the text is local (`greedy_local`, `inf_local`, `nan_local`, `int_agree`), so the other text meets the specification with the same result, and the specification determines the call.", "C80": "The counted model of C75; compute_float never asks for the slow path (its power of two is not negative, from C01's specification of it), and equal roundings have equal internal representations unless they are the smallest normal number.", "C81": "From the complete specification C74: both calls read the same numeral and round its value. The midpoints of the narrow format are floats of the wide one (`wider_mid`), and rounding to the wide format does not move a value past one (`rounds_side`).", "C82": "Model/Ipv4 models the client code; induction over the octets with C51 for each call", "C83": "no midpoint of two neighbouring floats lies strictly between two neighbouring decimals of that many digits (powers of 2 and 5); then C01-C06. Sharpness: the midpoint with exactly that many digits, evaluated by the kernel for the four types", "C84": "the client is modelled; completeness for whole texts (C73) for the part consumed (C56), and the delimiter theorem (C23) for the first blank behind the number", "C85": "the loops are modelled; induction on the list with the complete specification of the integer call (C51)", "C86": "the index of the result is the nearest-even index of the product, or (float16 ties) the upper one; both are functions of the product and monotone", "C87": "the formats are transcribed as regular expressions (Spec/Standards.lean, over Mathlib's RegularExpression); membership is computed construct by construct and compared with the numerals of the complete specification C55 (and C53 for integers)", "C88": "Spec/Preprocess.lean is a preprocessor for guards and quoted includes that hands every other line on; the script is modelled character by character; the preprocessor is simulated by a traversal of the nine headers, whose result is computed for symbolic contents.", "C89": "A word that every request accepts, and a measure: the state walks through all 2^64 values by steps of an odd constant, so that this word comes within 2^64 draws; the text is built by invariants over the loops; reading it is C55; the draw is fair because the words accepted for a value are the multiples of s in an interval whose length is a multiple of s.", "C90": "Spec/Overload.lean states the rules; Model/Overload.lean lists the candidates and their constraints and runs a call through the forwarding functions; the ranks are compared without enumerating platforms.", "C91": "the rounding relation of C01-C03 is turned into the interval around the rounded value; the intervals are shown to partition the rationals, so the converse holds too", "C92": "induction over the lines with the invariant that the answer is the greatest so far; C72 for the test of the pointer, C10 for the rounded maximum", "C93": "",
}
rows = []
for p in props:
    c = man.get(p["id"])
    th = ", ".join("`" + t.replace("FastFloat.", "") + "`" for t in c["theorems"]) if c else ""
    rows.append(f"| {p['id']} | {p['title']} | {c['status'] if c else ''} | {HOW.get(p['id'], '')} | {th} |")
text = open(os.path.join(root, "tools", "design_text.md")).read().replace("@@TABLE@@", "\n".join(rows))
open(os.path.join(root, "DESIGN.md"), "w").write(text)
