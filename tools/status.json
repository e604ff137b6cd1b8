{
 "C01": {
  "status": "proved",
  "note": "round trip, length and terminator for every byte string"
 },
 "C02": {
  "status": "proved",
  "note": "for every byte string, with uint32 wrap-around modelled"
 },
 "C03": {
  "status": "proved",
  "note": "for every byte string"
 },
 "C04": {
  "status": "proved",
  "note": "decoder = independent specification, exact rejection set, blind after '>'"
 },
 "C05": {
  "status": "proved",
  "note": "decoder = ISO run relation, exact failure set, bound, blind after EOD"
 },
 "C06": {
  "status": "proved",
  "note": "decoder = group relation (groups above 2^32-1 wrap, as in the code); blindness needs the text before ~> not to be the single byte '<', since the code takes '<~>' for an opening marker"
 },
 "C07": {
  "status": "proved",
  "note": "invariant over all histories of API calls, including Write"
 },
 "C08": {
  "status": "proved",
  "note": "for every number in play; for all numbers when object streams are never enabled"
 },
 "C09": {
  "status": "proved",
  "note": "table mode, byte for byte; entry width 20 needs the file below 10^10 bytes"
 },
 "C10": {
  "status": "proved",
  "note": "table mode; a user object stored under number 0 is not referenced (C10_object_zero_violated)"
 },
 "C11": {
  "status": "partial",
  "note": "holds when dictionaries are not shared and have no literal /Length key; both exceptions are proved to break it"
 },
 "C12": {
  "status": "partial",
  "note": "holds while the table plus trailer fits in the reader's 10000-byte window; violated for large documents"
 },
 "C13": {
  "status": "partial",
  "note": "dictionaries and writes without object streams are deterministic; object streams follow the map order (violated)"
 },
 "C14": {
  "status": "partial",
  "note": "table mode without encryption; violated in cross-reference-stream mode"
 },
 "C15": {
  "status": "proved",
  "note": "for every history; assumes the compressed bytes do not contain the words the reader searches for textually (endstream, /Index, /DecodeParms), and a zlib-like codec"
 },
 "C16": {
  "status": "partial",
  "note": "violated for every object stream this library writes (offsets too large by the header); holds for ISO-conforming object streams"
 },
 "C17": {
  "status": "partial",
  "note": "violated (panic); exact panic condition proved; no panic for well-formed headers"
 },
 "C55": {
  "status": "partial",
  "note": "filter types None/Sub/Up inverted for all rows; Average/Paeth passed through (violated)"
 },
 "C18": {
  "status": "proved",
  "note": "every text (valid UTF-8) and, for metadata, every byte string, against an ISO 32000 literal-string reader; bytes that are not UTF-8 are replaced (violated)"
 },
 "C19": {
  "status": "partial",
  "note": "exact effect and exact survival condition proved; violated for backslash followed by n/r/t"
 },
 "C20": {
  "status": "partial",
  "note": "text fields read back whatever the other fields hold; violated for '/', ' R', ')'"
 },
 "C21": {
  "status": "partial",
  "note": "characters up to U+00FF; violated above"
 },
 "C22": {
  "status": "partial",
  "note": "characters up to U+00FF except control white space; violated otherwise"
 },
 "C23": {
  "status": "proved",
  "note": "markers = occurrences of %%EOF; revisions are nested strictly growing prefixes with exactly k markers; range exact; last revision is the file when only EOLs follow"
 },
 "C24": {
  "status": "partial",
  "note": "proved end to end (Open/HasObject/GetObject) for every table-mode writer history followed by any list of table-style updates, under the reader's window and startxref side conditions; violated in general: an object stream entry of an older section shadows a newer direct object"
 },
 "C25": {
  "status": "partial",
  "note": "violated by the code: free entries never delete; concrete file and universal negation proved"
 },
 "C26": {
  "status": "partial",
  "note": "termination, link order, stop condition proved for every file; 'no section twice' is violated for the section closing a cycle (witness), proved for all others"
 },
 "C56": {
  "status": "partial",
  "note": "table mode, table within the 10000-byte window, bodies delimitable by keyword search"
 },
 "C27": {
  "status": "partial",
  "note": "Every parsed document: Bytes is the input; every raw object is the slice of the input between its offsets, ends with the only endobj; dictionary and stream slices inside it; Content is the body without surrounding white space; RevisionBytes, when it returns, is the slice from the first object or the cross-reference data to the end of the revision; violated: RevisionBytes panics for a revision whose startxref points past its own end."
 },
 "C28": {
  "status": "partial",
  "note": "GetObject/AllObjects/ObjectCount/HasObject agree for every parsed document (proved). GetObjectInRevision indexes by position, so it is wrong after an unreadable revision (violated, witness); correct when none was skipped."
 },
 "C29": {
  "status": "partial",
  "note": "Proved: every object of a written file is returned whole by the stand-alone reader (after any history; table mode, one startxref, windows, delimitable bodies). Violated: '5 0 obj' found inside '15 0 obj' (universal and concrete); first startxref 0 makes every stand-alone lookup fail; 10000-byte window. Also proved for files with ascending objects whose contents do not contain ' 0 obj'."
 },
 "C30": {
  "status": "partial",
  "note": "Proved for bodies that keywords delimit; violated for bodies containing endobj (universal) and for streams (witnesses, including a panic)."
 },
 "C41": {
  "status": "proved",
  "note": "for every notion of equality, unbounded lists"
 },
 "C42": {
  "status": "proved",
  "note": "accounting with multiplicity (List.Perm), order of removed/added, nothing equal left on both sides"
 },
 "C43": {
  "status": "proved",
  "note": "all granularities, sensitivities, tolerances and move settings"
 },
 "C44": {
  "status": "partial",
  "note": "holds with positive tolerance and distinct graphics/annotations (iff); violated for tolerance <= 0 and for coinciding graphics or annotations"
 },
 "C45": {
  "status": "partial",
  "note": "exact up to printed values; exact for values of the same simple kind; violated for values of different kinds printed alike, lists, and an empty form against none"
 },
 "C46": {
  "status": "proved",
  "note": "range, zero iff equal, normalisation meets its specification and is idempotent, words are the maximal runs"
 },
 "C57": {
  "status": "partial",
  "note": "what Identical guarantees is proved; violated for attributes of graphics/annotations that are not part of the key and for duplicates"
 },
 "C58": {
  "status": "proved",
  "note": "accounting with multiplicity"
 },
 "C31": {
  "status": "proved",
  "note": "for every lawful choice of primitives; the real MD5/SHA-256/AES are shown lawful. Record level and file level."
 },
 "C32": {
  "status": "partial",
  "note": "unless the owner password's check value collides with the user's (then the user branch is taken with the wrong key)."
 },
 "C33": {
  "status": "partial",
  "note": "violated at revision 5: concrete wrong password accepted (real primitives); exact acceptance condition proved; revisions 2-4 accept only on a matching check value."
 },
 "C34": {
  "status": "partial",
  "note": "AES with keys of at least 11 bytes, also end to end for whole files written with a record and opened with it (C34_encrypted_file_partial); violated for V1/V2 (never encrypted, but RC4-decrypted) and for AES keys of 1-10 bytes."
 },
 "C35": {
  "status": "partial",
  "note": "violated: a password and its doubling are the same for revisions 2-4; equal-length passwords and revision 5 are distinguished."
 },
 "C59": {
  "status": "partial",
  "note": "violated: padding differs for every password of 1-31 bytes not starting with '('; a conforming R2 file is rejected (real primitives). Right for empty and >=32-byte passwords."
 },
 "C60": {
  "status": "partial",
  "note": "crash condition characterised exactly; crashing file exhibited; no crash when the key length is within the derived key."
 },
 "C61": {
  "status": "proved",
  "note": "for records within the integer ranges and dictionaries of at most 2000 bytes (the parser's window)."
 },
 "C62": {
  "status": "partial",
  "note": "violated for content of 15 bytes (comes back empty); proved when (length+1) is not a multiple of 16."
 },
 "C36": {
  "status": "partial",
  "note": "any sequence of rotations, every starting value, for pages that state their rotation themselves in a recognisable way or not at all; violated for `/Rotate 270/Next` (number not recognised) and for inherited rotations"
 },
 "C37": {
  "status": "proved",
  "note": "ranges of SplitPDFByPageCount for every total and page count; the documents made from the ranges are C63"
 },
 "C38": {
  "status": "partial",
  "note": "exact effect on the parent's text proved for `/Kids[` in both key orders; the property is violated: /Count goes down by two, numbers ending with the deleted digits go too, `/Kids [` leaves garbage, a key right after the count is destroyed, ancestors' counts are not adjusted"
 },
 "C39": {
  "status": "partial",
  "note": "distinct numbering proved for all inputs and visit orders, exact reference map proved; violated: references to objects visited later keep their old number, hence for every order one of two mutually referring objects is wrong; page order follows Go's map order"
 },
 "C40": {
  "status": "partial",
  "note": "left-to-right leaves for every page tree whose texts are recognisable, both enumerations; violated for spaced kids (extraction), mixed /Type spellings, and cyclic trees (never terminates)"
 },
 "C63": {
  "status": "partial",
  "note": "range check and selection order proved; self-containedness violated for every page that refers to another object; old parent stays first; page object 1 overwritten"
 },
 "C64": {
  "status": "partial",
  "note": "every object is handed over under its own number; violated: the text is wrapped in a second object header"
 },
 "C65": {
  "status": "partial",
  "note": "position, order and count proved for `/Kids[` then `/Count`; violated for `/Kids [` and for nested page trees"
 },
 "C47": {
  "status": "partial",
  "note": "exact contents, counts and filters for every history and every growth policy; the list Warnings() returned keeps its content only until Clear (C47_clear_overwrites_violated), so only the stability half is partial"
 },
 "C48": {
  "status": "partial",
  "note": "Soundness and completeness of the lookup on two levels, of the validation rule and of GetFieldValues are proved; violated for fields below the second level, for partial names, required kids given by partial name, non-ASCII MaxLen and nil values."
 },
 "C49": {
  "status": "partial",
  "note": "Exact effect of SetFieldValue / ReplaceFieldObject proved; the claim itself is violated (offsets of later objects and startxref are not updated, object nested in itself, wrong object by suffix match, $ in values, hexadecimal and name values)."
 },
 "C50": {
  "status": "partial",
  "note": "The header and data computed are right for every conforming stream; violated for what is stored (header dropped) and for streams listing objects out of order."
 },
 "C66": {
  "status": "partial",
  "note": "Tx/Ch/Sig and the library's own fields are right; every button field is misclassified for every flag word (bits off)."
 },
 "C67": {
  "status": "partial",
  "note": "Proved for plain texts, from the builder through the written file to the parsed form; violated for escaped characters, texts that look like entries, ] in options."
 },
 "C68": {
  "status": "partial",
  "note": "Proved for the first entry of each kind; violated for second actions, nested appearance dictionaries, $ in the URI."
 },
 "C69": {
  "status": "partial",
  "note": "Parsing terminates exactly when no infinite chain of kids exists and then gives exactly the tree; violated (no termination) for cyclic fields."
 },
 "C52": {
  "status": "proved",
  "note": "Over all histories of AddRune/AddString, all fonts and all map visiting orders; unicode.IsPrint is a parameter."
 },
 "C53": {
  "status": "partial",
  "note": "Format 4 always terminates; format 12 terminates iff no group runs to 0xFFFFFFFF (a font that hangs GetSubsetGlyphs is given). Widths are right for glyphs < 16384 with an own hmtx entry; glyphs >= 16384 wrap around, glyphs behind numberOfHMetrics get side bearings (violations proved)."
 },
 "C71": {
  "status": "partial",
  "note": "Choice of the subtable, format 4 and format 12 proved for all conforming subtables. Violated: other formats are read as format 4; a format 4 table can read bytes outside the table."
 },
 "C72": {
  "status": "partial",
  "note": "ParseTTF does not panic when the name table is below 65536 bytes, format 12 never, parseCmap when the subtable and its arrays are inside the file; three crash witnesses proved, one a complete file for ParseTTF."
 },
 "C51": {
  "status": "partial",
  "note": "Decode proved for every decoder and byte string; hexadecimal strings agree with it for one-byte fonts, and give one character per two-byte code for two-byte fonts. Violated: literal strings of two-byte fonts are decoded byte by byte, two-byte fonts whose codes are all below 256 are taken for one-byte fonts, tabs inside hexadecimal strings shift the digits."
 },
 "C73": {
  "status": "partial",
  "note": "Proved for injective character maps in the basic plane and every visiting order. Violated: characters outside the basic plane, two characters sharing a glyph (order dependent), text is shown with character bytes rather than glyph numbers."
 },
 "C74": {
  "status": "partial",
  "note": "Proved for every map of single codes, runs and arrays of one or two characters of the basic plane with any white space. Violated: arrays of three or more characters map extra codes, UTF-16 pairs, ligatures, order of sections."
 },
 "C75": {
  "status": "partial",
  "note": "Proved for arrays with spaces between the elements and each code named once. Violated: names without spaces between them are lost, base encodings of inline encoding dictionaries are ignored, six-digit names."
 },
 "C76": {
  "status": "partial",
  "note": "Proved for all call sequences whose shown texts have no ')' (no ']' in text arrays), no backslash before n, r, t, font names of word characters, and where restoring the state does not change text parameters; each of these limits is proved necessary by a violation theorem. Floating-point numbers are abstract; %.4f is instantiated with exact four-decimal numbers."
 },
 "C77": {
  "status": "partial",
  "note": "Proved for calls that move by Td and translating Tm, with each text object starting at the origin or with Tm. Violations: second text object, T*, TD, ', scaled Tm."
 },
 "C78": {
  "status": "partial",
  "note": "Proved without gray colours and where Q changes no colours or width; violations for both."
 },
 "C79": {
  "status": "partial",
  "note": "Proved where cm is only used on the unit matrix, and in full for any list of DrawImageAt; violation: cm replaces instead of multiplying."
 },
 "C83": {
  "status": "partial",
  "note": "RC4 (/V 1, 2) and AES-128 (/V 4) proved against an independent specification of Algorithm 1; violated for AES-256 (/V 5), where the code derives a key per object although the standard uses the file key itself (kernel-checked witness with the real MD5 and AES)."
 },
 "C54": {
  "status": "partial",
  "note": "Proved: for a catalog without /Type or /Pages the /Outlines entry is inserted and every other byte and object is kept; a second Write changes nothing. Violated (universal theorem): every ordinary catalog (/Type and a /Pages reference) is replaced by one with only /Outlines, /Pages and /Type, and /Pages becomes a string."
 },
 "C80": {
  "status": "partial",
  "note": "Proved for every history and every bookmark forest: fresh distinct numbers, links, counts, frame; the page numbers a builder hands out are exactly its pages in order (C80_builder_pages). Violated: top-level items have no /Parent; page destinations are written as strings."
 },
 "C81": {
  "status": "partial",
  "note": "Proved end to end (SetBookmarks, Write, Open, ExtractBookmarks): exact result (readBackAll) and same nesting, for table mode, texts that cannot be taken for keys, delimitable objects. Violated: titles come back with a parenthesis in front, pages as 0, page destinations cut, links as /Type."
 },
 "C82": {
  "status": "partial",
  "note": "Proved: acyclic outlines terminate and the recursion bound in the model is irrelevant. Violated: any cycle never finishes; also for a file the library writes itself from a bookmark title."
 },
 "C70": {
  "status": "partial",
  "note": "Proved: a file that ends in a flat trailer dictionary, startxref and a readable table opens through the fall-back with exactly the table's entries. Violated by the code: for every file the /Root and /Info kept by the fall-back cannot be followed by the library, so no page, bookmark or metadata is reachable; compressed objects are never found; Open crashes on a file whose stream dictionary lies more than 500 bytes behind startxref."
 },
 "C84": {
  "status": "proved",
  "note": "For every history without the caller's own SetObject/SetStreamObject. Float formatting of the page size is a parameter (the printed text), map iteration order is a parameter."
 },
 "C85": {
  "status": "partial",
  "note": "Table mode, no encryption, resource names that are not keywords, at least one page, file fits the reader's windows. Violations proved: with no finalised page the tree is stored as object 0 and listing pages fails; a page with nothing drawn refers to an object that is no stream; setting bookmarks makes the page tree unreachable."
 },
 "C86": {
  "status": "partial",
  "note": "Standard fonts not named F<n> and images without a name. Violations proved: a font named like a resource, the same font twice gives two names, names reused after a collision."
 },
 "C87": {
  "status": "partial",
  "note": "The second Bytes has the same pages; violations proved: it adds a second catalog (different bytes), and map order changes the bytes."
 },
 "C88": {
  "status": "partial",
  "note": "SOF0-3, no fill bytes. Violations proved: truncated header panics, a fill byte hides the frame, other frame types are not recognised. Termination proved for every input."
 },
 "C89": {
  "status": "partial",
  "note": "Opaque colour and gray images exact; mask stored. Violations proved: translucent pixels are stored premultiplied, 16-bit and paletted images lose their transparency. Image decoding (image/png) is not modelled."
 },
 "C90": {
  "status": "partial",
  "note": "On success balanced, one text or image. Violations proved: default options always fail, failure leaves the state saved, nil colour panics, image names with/without slash."
 },
 "C91": {
  "status": "partial",
  "note": "Standard fonts, free resource names, ASCII texts without quotation marks, table mode, the file fits the reader's windows. Violated: ' and ` come back as typographic quotes, non-ASCII texts come back as other characters, an image called Rotate rotates the page."
 },
 "C92": {
  "status": "partial",
  "note": "Arrays directly behind /Contents. Violated for every page with white space before the array (nothing is found), and text state is not carried from stream to stream."
 },
 "C93": {
  "status": "partial",
  "note": "Own direct boxes and rotation. Violated: inherited attributes, indirect boxes, other corners."
 },
 "C94": {
  "status": "partial",
  "note": "Arrays directly behind /Annots, known kinds, rectangles and plain targets; no crash without /URI. Violated: white space before the array loses all annotations, crash on some targets, targets of standard actions lost, notes cut, PolyLine unknown."
 },
 "C95": {
  "status": "partial",
  "note": "Image data exact when the length is direct; JPEG round trip for every accepted file. Violated: images with the same name on different pages, indirect lengths, crash on a huge length."
 },
 "C96": {
  "status": "partial",
  "note": "linking, freshness and frame proved for every history and font; false: two /Length entries (the first wrong), /CIDSystemInfo is a Go map's text, names are written unescaped, the whole font file is embedded without subsetting"
 },
 "C97": {
  "status": "partial",
  "note": "widths are those of the listed glyphs, in list order; false as to codes: entries are by position in the glyph list, not by code, so letters get others' widths; division truncates"
 },
 "C98": {
  "status": "partial",
  "note": "all codes of the three encodings with the exception of MacRoman 219; false: code 219 and fonts with built-in encodings (Symbol)"
 },
 "C99": {
  "status": "partial",
  "note": "Windows records, tables under 65536 bytes; false for Unicode-platform records, surrogate pairs and Macintosh-only fonts"
 },
 "C100": {
  "status": "partial",
  "note": "Well-formed fields and identifiers for all inputs; the uniqueness half is false (C100_unique_violated: two names with the same letters share an identifier)."
 },
 "C101": {
  "status": "partial",
  "note": "Templates whose field elements are not nested and describe themselves by attributes and one value element; caption elements are ignored (C101_caption_violated) and a value begun before a field leaks (C101_prefix_violated)."
 },
 "C102": {
  "status": "partial",
  "note": "Flat fields whose name is their first attribute, values without markup, all map orders; escaping, nesting, other attribute orders and a crash are violated with witnesses."
 },
 "C103": {
  "status": "partial",
  "note": "New data that fits, or a slice without room; otherwise the tail is overwritten before it is copied (C103_tail_violated), the caller's bytes change (C103_caller_violated) and another object can be hit (C103_other_violated)."
 },
 "C104": {
  "status": "partial",
  "note": "Unencrypted, known names, data that does not itself decompress; signature and sourceSet are dropped (C104_dropped_violated)."
 },
 "C105": {
  "status": "partial",
  "note": "Uncompressed datasets that fit; a compressed stream is replaced by plain XML under /FlateDecode, offsets go stale, a longer value destroys the file (violations with witnesses)."
 },
 "C106": {
  "status": "partial",
  "note": "Non-stream objects outside object streams are kept, streams that are not updated keep their data and their numeric length, updated streams are written, the catalog is kept; dictionaries of streams are mangled, unknown streams dropped silently, two crashes (violations with witnesses)."
 },
 "C107": {
  "status": "partial",
  "note": "Proved for data of unambiguous values in groups without nested groups, for every order of the maps and every way the XML decoder delivers indentation (encoding/xml is a hypothesis on tokens). Violated: nested groups and all groups after them are lost, 0/1/numeric text/padded text change their kind, reserved group names."
 },
 "C108": {
  "status": "proved",
  "note": "For every file, password and reader parameters: Extract returns a form exactly when Detect reports one, of that type."
 },
 "C109": {
  "status": "partial",
  "note": "Built XFA files (conditions of C104 and C107) and built AcroForms (conditions of C67, first /AcroForm is the reference) are detected with their data; the unified form agrees with the form it wraps on every call (C109_agrees). Violated: Validate of an XFA form never reports anything; Fill ignores the wrapper; values in groups are not returned."
 },
 "C110": {
  "status": "proved",
  "note": "errors.Is is modelled on chains of any length; the context map is left out."
 },
 "C111": {
  "status": "partial",
  "note": "Soundness proved; the converse is false for every wrapped error (proved)."
 },
 "C112": {
  "status": "partial",
  "note": "Proved for all call sequences whose read/peek sizes do not overflow int64 with the data length; a read of MaxInt64 crashes (proved)."
 },
 "C113": {
  "status": "partial",
  "note": "The code fails on every right offset that follows white space (proved, with no condition on the object); proved positive only at offset 0. Parsing after the header is a parameter."
 },
 "C114": {
  "status": "partial",
  "note": "False of the code: Bytes replaces the catalog that BuildForm wrote, so the form is lost in every history (C114_lost_violated); without Bytes the page tree is missing (C114_tree_violated); no page lists the widgets (C114_widgets_violated). Proved: the one order of calls that works for catalog, tree and fields."
 },
 "C115": {
  "status": "partial",
  "note": "Proved: the files and content.json (C115_written), the counts as the code defines them, other files untouched. False: the image count is not that of the files written, and a second run into the same directory overwrites images under the earlier content.json."
 },
 "C116": {
  "status": "proved",
  "note": "All crash points between and within writes; a write cut short leaves a prefix."
 },
 "C117": {
  "status": "partial",
  "note": "Proved: the verdict, and a line for each kind of difference that has one. False: eight metadata fields, object counts and modified or moved images are never reported (C117_silent_violated)."
 },
 "C118": {
  "status": "partial",
  "note": "Proved: success means the update was written, failure leaves all files but the log alone. False: only four passwords are tried, filling in place is not crash safe, and -extract-schema reads the datasets stream, so its schema is empty for standard data."
 },
 "C119": {
  "status": "partial",
  "note": "Proved: what SurvivesXFA lists, for every schema. False, for every schema: rules, description, version, option values, patterns and limits, page numbers, hidden on read-only fields, and the select type are lost."
 },
 "C120": {
  "status": "partial",
  "note": "Proved: no crash on any tokens, valid identifiers, all fields in order when subforms are not nested. False: nested subforms lose fields, ui types, captions, item texts and scripts are not read, identifiers are not unique."
 },
 "C121": {
  "status": "partial",
  "note": "exact effect for all sets with 64 bit precisions; equality without negative precisions and without holidays that are empty, padded or contain the word holiday; violated for a holiday named \"bank holiday\""
 },
 "C122": {
  "status": "partial",
  "note": "equality (up to map order) for properties with unpadded values and names outside the reader's own; writing fails exactly for nameless properties; violated for every data description with a property of a known name"
 },
 "C123": {
  "status": "partial",
  "note": "exact effect for all configurations whose properties are not named like sections; what each submit attribute and each setting is read as; equality for configurations with only what the reader knows; violated for every configuration with further properties or with validate, common or output settings"
 },
 "C124": {
  "status": "partial",
  "note": "exact effect for all stylesheets with distinct property names; equality for typed parts without negative numbers and values whose text says what they are; violated for every text that looks like a number"
 },
 "C125": {
  "status": "proved",
  "note": "for every token list"
 },
 "C126": {
  "status": "partial",
  "note": "success iff every known field could be read and replaced, for fields outside object streams; for fields in one object stream the rebuilt stream with every last text; the entry points agree (C126_entries); exact bytes for one field of a written file. Violated: a second field, or opening the result, crashes; invalid data is filled in"
 },
 "C127": {
  "status": "partial",
  "note": "top-level fields only: children have no questions (C127_kids_violated)"
 },
 "C128": {
  "status": "proved",
  "note": "regexp and ParseFloat are parameters"
 },
 "C129": {
  "status": "partial",
  "note": "one direction, for flat forms with distinct names; the converse is violated"
 },
 "C130": {
  "status": "partial",
  "note": "trees of one node, under the conditions of C38; any order of the numbers. Violated: a failing call keeps what it deleted before"
 },
 "C131": {
  "status": "partial",
  "note": "every tree; page texts under the conditions of C36, pages distinct. Violated for a page listed twice"
 },
 "C132": {
  "status": "partial",
  "note": "trees of one node, under the conditions of C65. Violated: numbers in use are overwritten; later calls do not count the new page"
 },
 "C133": {
  "status": "proved",
  "note": ""
 },
 "C134": {
  "status": "proved",
  "note": ""
 },
 "C135": {
  "status": "proved",
  "note": "The three loops named in the statement; other loops of the reader do not end on cyclic input (C40, C69, C82)."
 },
 "C136": {
  "status": "proved",
  "note": ""
 },
 "C137": {
  "status": "proved",
  "note": ""
 },
 "C138": {
  "status": "proved",
  "note": ""
 },
 "C139": {
  "status": "proved",
  "note": ""
 },
 "C140": {
  "status": "proved",
  "note": "The primitives (AES, SHA-256, MD5) are parameters with their laws as hypotheses, instantiated by real implementations."
 },
 "C141": {
  "status": "proved",
  "note": "AES-256 is the exception recorded in C83."
 },
 "C142": {
  "status": "proved",
  "note": "Text, graphics and annotations are the subject of C44 and C57."
 },
 "C143": {
  "status": "proved",
  "note": ""
 },
 "C144": {
  "status": "proved",
  "note": "Offsets are not updated: see C49."
 },
 "C145": {
  "status": "proved",
  "note": ""
 },
 "C146": {
  "status": "proved",
  "note": ""
 },
 "C147": {
  "status": "proved",
  "note": ""
 },
 "C148": {
  "status": "proved",
  "note": "Part of C118; the remaining parts of C118 are violated."
 },
 "C149": {
  "status": "partial",
  "note": "Exactly the references are left out (C149_exact, all files that open with a form); with one reference none remains (C149_gone_partial). Violated: nothing is drawn onto the pages, offsets of the xref table are not corrected, and taking one reference out can make another."
 },
 "C150": {
  "status": "partial",
  "note": "A content of one line is returned exactly, for every layout. Violated: contents of several lines come back as the whole object text, state dictionaries are never read."
 },
 "C151": {
  "status": "partial",
  "note": "Check boxes in full; text and labels for characters up to U+00FF. Violated: the font resource is object 0, the button ignores the font size, characters above U+00FF become others."
 },
 "C152": {
  "status": "partial",
  "note": "Proved for every history before SetMetadata and every later history of adds, sets of other objects, root and version calls, for plain metadata (no closing parenthesis, custom names of letters, digits and underscores), in files with a cross-reference table. The page count is the number of objects (C152_pages_violated); other custom names are lost and texts cut at a parenthesis (C152_custom_violated)."
 },
 "C153": {
  "status": "partial",
  "note": "Proved for every valid date in every form, except zones less than an hour behind UTC, whose sign is lost (C153_zone_violated); a text that is no date becomes the current time (C153_now_violated). Fractions of seconds are dropped."
 },
 "C154": {
  "status": "partial",
  "note": "Proved: each field is the last entry for it in the order walked (C154_last), the fields set are those a written file states (C154_written_partial), and the order does not matter if no two keys name the same field (C154_order_partial); with Title and title the result is random (C154_order_violated). ASCII keys."
 },
 "C155": {
  "status": "partial",
  "note": "No crash on any file none of whose named offsets (startxref or /Prev, including a /Prev cut off by the 2000-byte window) is at a place where reading a cross-reference stream goes out of bounds; in particular none if all stated offsets are those of tables. C155_crash_violated: every file whose startxref points less than 500 bytes before the end, not at a table, at bytes with obj among the first hundred and no object header after it, makes Open crash (a startxref 7 bytes too small is enough). Objects: no crash if every endobj is followed by three bytes; C155_get_violated otherwise. Slices are taken to have capacity = length."
 },
 "C156": {
  "status": "partial",
  "note": "Pages and annotations in full; images and fonts one per name (C156_each_partial). Names belong to a page, so two pages that use one name for different images lose one (C156_lost_violated)."
 },
 "C157": {
  "status": "proved",
  "note": "Inflate is a parameter of the model."
 },
 "C158": {
  "status": "partial",
  "note": "Proved for every cut between the last object and startxref, for streams as in C104 whose stored bytes hold neither `stream` nor `<<` and files in which each object header occurs once. Violated for streams that contain `<<`: the data is taken for an object once more and loses its beginning. Violated also for objects of an update: without tables, the old copy of an object is read although the new one is complete (C158_old_copy_violated)."
 },
 "C159": {
  "status": "partial",
  "note": "Proved in full per error object (C159_own, C159_kept, every history). Violated as to what a user sees: WithContext on a predefined error (ErrObjectNotFound …) changes that error for everyone (C159_shared_violated)."
 },
 "C160": {
  "status": "partial",
  "note": "Proved for the compact layout of the dictionary with literals free of the texts the reader looks for: version, revision, key length and signed permission numbers are read as stated, /O, /U and the file identifier exactly if they contain no parenthesis and no backslash. Refuted for all others (C160_string_violated), for unsigned permission numbers (C160_word_violated); C160_refused: with an early closing parenthesis in /U no password opens the file."
 },
 "C161": {
  "status": "partial",
  "note": "Both passwords open the file and give back every stream with its stored dictionary; table mode, reader windows, nothing else in the file looking like the encryption entries, separable streams; owner password: unless its check value equals the user's."
 },
 "C162": {
  "status": "partial",
  "note": "Streams: the file depends on their data only through the cipher texts (table mode, literal dictionaries). Violated for all other objects: their content, strings included, is stored in plain text (C162_objects_violated)."
 },
 "C163": {
  "status": "proved",
  "note": "result and warnings of both functions, for every input"
 },
 "C164": {
  "status": "partial",
  "note": "same crashes; for written files the same places; for any file without predictor every object is known to both; the code breaks it for predictors (ParseXRefStream does not undo them), for free entries (C70_free_entry_violated) and in ParseCrossReferenceTable, which does not recognise the streams this library writes"
 },
 "C165": {
  "status": "partial",
  "note": "Same verdict, same number of differences per page, and additions and removals exchanged, for all options, if no page draws the same graphic or annotation twice (violated otherwise: a rectangle drawn twice); with comparison by elements which of two swapped texts is reported depends on the order (C165_which_violated); metadata, forms, images and word/character comparison exactly exchanged."
 },
 "C166": {
  "status": "partial",
  "note": "Numbers (no conditions, for all histories), commutation of turns and deletions (no conditions) proved; the sum of the turns under the conditions of C36 on the page texts. C166_follow_violated: after DeletePage(1), page 1 is still the deleted page, although the comment of DeletePages speaks of index shifts."
 },
 "C167": {
  "status": "partial",
  "note": "Proved for every file and cipher: the offset search exactly (C167_chunks), the decrypted object and the array afterwards exactly (C167_content, C167_content_stream), the crash exactly (C167_crash), objects wholly encrypted on lines of their own (C167_object_partial), the generation of a header (C167_generation_partial), the file untouched when the regular reading of the AcroForm succeeds (C167_file_kept_partial). Violated otherwise: a damaged file is overwritten (C167_file_changed_violated) and cannot be read a second time (C167_twice_violated), objects on one line bring the program down (C167_crash_violated) or get another object's generation (C167_generation_violated), a dictionary in the clear is decrypted (C167_standard_violated)."
 },
 "C168": {
  "status": "partial",
  "note": "Proved: unencrypted objects exactly (C168_plain), dictionaries of any number of entries with values of any nesting (C168_read_partial), objects encrypted as a whole and value by value (C168_encrypted_partial, C168_values_partial), other encrypted objects (C168_other), and reading ends for all data not ending with a slash (C168_ends). Conditions: brackets match, parentheses in strings are escaped and backslashes are not, names stand inside of brackets. Violated otherwise: names as values (C168_names_violated), hexadecimal strings before the end (C168_hex_violated), escaped backslashes (C168_backslash_violated), broken keys (C168_broken_key_violated); a dictionary cut off behind a slash is read for ever (C168_cut_off_hangs_violated, C168_hang_violated)."
 }
}
