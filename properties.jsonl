{"id": "C01", "title": "ASCIIHex round trip", "statement": "DecodeASCIIHex(EncodeASCIIHex(b)) returns b and no error, and the encoded form has length 2*len(b)+1 and ends in '>'.", "quantifier": "every byte string b, of any length", "why_tests_cant": "the domain is all byte strings; a test samples a few of them", "anchors": ["core/parse/filters.go:DecodeASCIIHex", "core/parse/filters.go:EncodeASCIIHex"]}
{"id": "C02", "title": "ASCII85 round trip", "statement": "DecodeASCII85(EncodeASCII85(b)) returns b and no error, for whole and partial final groups and for groups of four zero bytes.", "quantifier": "every byte string b, of any length", "why_tests_cant": "base-85 carries, padding of the last group and 32-bit wrap-around depend on every one of 2^32 group values and on the length modulo 4", "anchors": ["core/parse/filters.go:DecodeASCII85", "core/parse/filters.go:EncodeASCII85", "core/parse/filters.go:decodeASCII85Tuple"]}
{"id": "C03", "title": "RunLength round trip", "statement": "DecodeRunLength(EncodeRunLength(b)) returns b and no error.", "quantifier": "every byte string b, in particular every arrangement of run lengths around the limits 127/128", "why_tests_cant": "run boundaries interact with the 128-byte limits at unboundedly many positions", "anchors": ["core/parse/filters.go:DecodeRunLength", "core/parse/filters.go:EncodeRunLength"]}
{"id": "C04", "title": "ASCIIHex decoder: exact acceptance and value", "statement": "DecodeASCIIHex succeeds exactly when every byte before the first '>' is PDF whitespace or a hex digit; its result is the pairwise value of the hex digits (a missing last digit counts as 0), so whitespace and everything after '>' never influence it.", "quantifier": "every byte string", "why_tests_cant": "acceptance is a property of all malformed inputs as well as all well-formed ones", "anchors": ["core/parse/filters.go:DecodeASCIIHex"]}
{"id": "C05", "title": "RunLength decoder: bounded, exact, and blind after EOD", "statement": "DecodeRunLength returns either an error or at most 128 times as many bytes as it read; it fails exactly on a truncated final run; bytes after the EOD marker (128) never influence the result.", "quantifier": "every byte string", "why_tests_cant": "memory bound and error condition must hold for hostile input", "anchors": ["core/parse/filters.go:DecodeRunLength"]}
{"id": "C06", "title": "ASCII85 decoder: bounded and blind after '~>'", "statement": "DecodeASCII85 yields an error or at most 4 bytes per input byte, rejects every byte outside whitespace, '!'..'u', 'z' and a '~' followed by '>', and bytes after '~>' never influence the result.", "quantifier": "every byte string", "why_tests_cant": "hostile inputs cannot be enumerated", "anchors": ["core/parse/filters.go:DecodeASCII85"]}
{"id": "C07", "title": "Object numbers are fresh", "statement": "Every object number handed out by AddObject/AddStreamObject is positive, differs from every number handed out before and from every number used in an earlier SetObject/SetStreamObject, so no add ever overwrites an existing object.", "quantifier": "every history of AddObject, AddStreamObject, SetObject, SetStreamObject, SetRoot, SetInfo calls", "why_tests_cant": "depends on the whole call history", "anchors": ["core/write/writer.go:AddObject", "core/write/writer.go:AddStreamObject", "core/write/writer.go:SetObject", "core/write/writer.go:SetStreamObject", "core/write/writer.go:NextObjectNumber"]}
{"id": "C08", "title": "Writer reads back the last write", "statement": "After any history, GetObject(n) returns the content given by the most recent Add/Set call for n, and an error if there was none.", "quantifier": "every call history and every object number", "why_tests_cant": "depends on the whole call history", "anchors": ["core/write/writer.go:GetObject", "core/write/writer.go:SetObject", "core/write/writer.go:AddObject"]}
{"id": "C09", "title": "Cross-reference offsets are exact", "statement": "In the bytes produced by Write (cross-reference table mode) the table's entry for every stored object n is the byte offset at which the text 'n 0 obj' for that object's content begins, every entry is exactly 20 bytes, and the number after startxref is the offset of the 'xref' keyword.", "quantifier": "every set of objects with arbitrary contents, versions and trailer settings (file below 10^10 bytes)", "why_tests_cant": "offsets depend on the lengths of all preceding objects; an off-by-one is only visible in some combinations", "anchors": ["core/write/writer.go:Write", "core/write/writer.go:Bytes"]}
{"id": "C10", "title": "Unused object numbers are free entries", "statement": "In the table produced by Write, object numbers with no stored object (including 0) have a free entry (f), numbers with a stored object have an in-use entry (n), and /Size is one more than the largest number.", "quantifier": "every set of objects, including sparse numberings made with SetObject", "why_tests_cant": "gaps may be anywhere", "anchors": ["core/write/writer.go:Write"]}
{"id": "C11", "title": "Stream /Length is exact", "statement": "For every stream object written, the /Length in its dictionary is the exact number of bytes between 'stream\\n' and '\\nendstream', whatever /Length the caller supplied.", "quantifier": "every dictionary and data, including data containing 'endstream', and both compressed and uncompressed", "why_tests_cant": "data is arbitrary bytes", "anchors": ["core/write/writer.go:AddStreamObject", "core/write/writer.go:SetStreamObject", "core/write/writer.go:Write"]}
{"id": "C12", "title": "Written table is read back exactly", "statement": "Parsing the cross-reference table written by Write with the library's own table reader gives exactly the written object-number-to-offset map.", "quantifier": "every set of objects", "why_tests_cant": "the reader reads a bounded window of the file, so small samples pass", "anchors": ["core/write/writer.go:Write", "core/parse/parser.go:ParseTraditionalXRefTable"]}
{"id": "C13", "title": "Dictionary output is deterministic", "statement": "The serialised form of a dictionary, and hence of the whole file, depends only on the set of key/value pairs and objects, not on Go's map iteration order; keys come out in sorted order, each written with exactly one leading '/'.", "quantifier": "every dictionary and every iteration order", "why_tests_cant": "map iteration order is a scheduler choice that differs between runs", "anchors": ["core/write/writer.go:formatDictionary", "core/write/writer.go:Write"]}
{"id": "C14", "title": "Serialising twice gives the same file", "statement": "Calling Bytes/Write a second time without changing the document produces the same bytes and does not change the document.", "quantifier": "every writer state, table mode and stream mode", "why_tests_cant": "state leaks only show up on particular repeated histories", "anchors": ["core/write/writer.go:Write", "core/write/xref_stream.go:writeXRefStream"]}
{"id": "C15", "title": "Cross-reference stream entries round trip", "statement": "Decoding, with the library's xref-stream reader, the entry table the library writes in xref-stream mode gives back exactly the type and fields of every entry: the in-use offset of each direct object, and (stream, index) of each compressed object.", "quantifier": "every table of entries, every field value and every number of entries", "why_tests_cant": "field widths depend on the largest value", "anchors": ["core/write/xref_stream.go:writeXRefStream", "core/write/xref_stream.go:calculateBytesNeeded", "core/write/xref_stream.go:writeBigEndian", "core/parse/object_stream.go:ParseXRefStreamFull"]}
{"id": "C16", "title": "Compressed objects read back", "statement": "An object that the writer placed in an object stream is returned unchanged by the library's object-stream reader.", "quantifier": "every non-empty list of eligible objects", "why_tests_cant": "header length and offsets depend on all objects in the stream", "anchors": ["core/write/object_stream.go:createObjectStreams", "core/parse/object_stream.go:GetObjectFromStream"]}
{"id": "C17", "title": "Object-stream reader never reads out of bounds", "statement": "Reading an object out of an object stream returns an error or a slice of the decoded stream; it never crashes, whatever /N, /First and the header offsets are.", "quantifier": "every decoded stream, /N, /First, object index", "why_tests_cant": "hostile headers", "anchors": ["core/parse/object_stream.go:GetObjectFromStream"]}
{"id": "C18", "title": "String escaping is faithful to PDF", "statement": "For text put in a literal string by the writer (content text, metadata), a conforming reader of PDF literal strings recovers exactly the original bytes, and the parentheses of the written literal are balanced so the string ends where the writer ended it.", "quantifier": "every byte string", "why_tests_cant": "arbitrary nesting of backslashes, parentheses and control characters", "anchors": ["core/write/content.go:escapePDFString", "core/write/metadata.go:escapePDFStringForMetadata"]}
{"id": "C19", "title": "The library's own unescape inverts its escape", "statement": "unescapePDFString applied to an escaped string gives the original string.", "quantifier": "every byte string", "why_tests_cant": "sequential ReplaceAll passes interact only for particular adjacent characters", "anchors": ["content/extract/metadata.go:unescapePDFString", "core/write/content.go:escapePDFString"]}
{"id": "C20", "title": "Metadata values survive", "statement": "A metadata value written into the Info dictionary is written as a literal string whose PDF value is the given text.", "quantifier": "every title/author/... text", "why_tests_cant": "type guessing by prefix/suffix misfires only on particular texts", "anchors": ["core/write/writer.go:formatValue", "core/write/metadata.go:SetMetadata"]}
{"id": "C21", "title": "Field-value escaping", "statement": "A form field value escaped for a literal string is recovered by a conforming PDF literal-string reader.", "quantifier": "every string of Unicode scalar values", "why_tests_cant": "code points above 255 and digits following an octal escape", "anchors": ["forms/acroform/replace.go:escapeFieldValue", "forms/acroform/writer.go:escapeFieldValueForWriter"]}
{"id": "C22", "title": "PDF name escaping", "statement": "A font name escaped by escapeName is one PDF name token, and a conforming name reader recovers the original name.", "quantifier": "every string of Unicode scalar values", "why_tests_cant": "delimiters anywhere, code points above 255", "anchors": ["resources/font/pdf.go:escapeName"]}
{"id": "C23", "title": "Revisions are prefixes", "statement": "ExtractRevision(n) returns a prefix of the file that ends with the n-th %%EOF marker followed only by its line end; prefixes grow strictly with n, CountRevisions is the number of %%EOF markers, and an out-of-range n is an error.", "quantifier": "every byte string and every n", "why_tests_cant": "markers may be anywhere, adjacent, or at the end of file", "anchors": ["core/parse/incremental.go:FindAllEOFMarkers", "core/parse/incremental.go:CountRevisions", "core/parse/incremental.go:ExtractRevision", "core/parse/incremental.go:GetRevisionBoundaries"]}
{"id": "C24", "title": "Newest revision wins", "statement": "After merging the cross-reference sections of an incrementally updated file, each object is located by the newest section that mentions it.", "quantifier": "every chain of sections, of any length and content", "why_tests_cant": "precedence depends on the whole history of updates", "anchors": ["core/parse/incremental.go:mergeSections", "core/parse/incremental.go:ParseWithIncrementalUpdates", "core/parse/api.go:parseStandard"]}
{"id": "C25", "title": "Deleted objects stay deleted", "statement": "An object freed in a later revision is not reported as present by the merged view.", "quantifier": "every revision history", "why_tests_cant": "needs a history with a delete after a create", "anchors": ["core/parse/incremental.go:mergeSections", "core/parse/incremental.go:parseTraditionalxrefSection"]}
{"id": "C26", "title": "The /Prev chain walk terminates", "statement": "Following /Prev links always terminates, visits no section twice, and visits exactly the sections reachable from the start, even when the links form a cycle.", "quantifier": "every file, i.e. every partial map from offsets to previous offsets", "why_tests_cant": "cyclic chains of any length", "anchors": ["core/parse/incremental.go:parseXRefChain"]}
{"id": "C27", "title": "Byte-perfect documents", "statement": "For a document parsed byte-perfectly, Bytes() is the input; every raw object's RawBytes is exactly the slice of the input between its offset and end offset.", "quantifier": "every input accepted by the parser", "why_tests_cant": "all inputs", "anchors": ["core/parse/document.go:Bytes", "core/parse/document_parser.go:ParseRawObject"]}
{"id": "C28", "title": "Document queries agree", "statement": "GetObject(n), AllObjects, ObjectCount and HasObject agree: n is in AllObjects exactly when GetObject(n) succeeds, with the same value, coming from the newest revision that has n.", "quantifier": "every list of revisions", "why_tests_cant": "every history of revisions", "anchors": ["core/parse/document.go:GetObject", "core/parse/document.go:AllObjects", "core/parse/document.go:ObjectCount"]}
{"id": "C29", "title": "Object lookup finds the requested object", "statement": "Searching the file for object n returns the position of n's header, not of another object's.", "quantifier": "every file and object number", "why_tests_cant": "requires object numbers that are decimal suffixes of one another", "anchors": ["core/parse/parser.go:FindObjectByNumber"]}
{"id": "C30", "title": "Object bodies are complete", "statement": "GetObject returns the whole body of the object, also when the object is a stream whose data contains the bytes 'endobj' or 'endstream'.", "quantifier": "every stream content", "why_tests_cant": "stream data is arbitrary bytes", "anchors": ["core/parse/get_object.go:GetDirectObject"]}
{"id": "C31", "title": "AES-256: the user password opens the file", "statement": "For a file encrypted with SetupAES256Encryption(user, owner), opening it with the user password recovers exactly the file key.", "quantifier": "every pair of passwords, every random key and salts, every hash/cipher satisfying decrypt-inverts-encrypt", "why_tests_cant": "key space", "anchors": ["core/write/encryption_v5.go:SetupAES256Encryption", "core/encrypt/key_derivation.go:UnwrapUserKeyV5", "core/encrypt/decrypt.go:DecryptPDF"]}
{"id": "C32", "title": "AES-256: the owner password opens the file", "statement": "Opening with the owner password recovers the file key.", "quantifier": "every pair of passwords, every random key and salts", "why_tests_cant": "key space", "anchors": ["core/write/encryption_v5.go:SetupAES256Encryption", "core/encrypt/decrypt.go:DecryptPDF"]}
{"id": "C33", "title": "A wrong password is rejected", "statement": "A password which is neither the user nor the owner password is not accepted.", "quantifier": "every file and password", "why_tests_cant": "acceptance by accident depends on pseudo-random bytes", "anchors": ["core/encrypt/decrypt.go:DecryptPDF"]}
{"id": "C34", "title": "Stream encryption round trip", "statement": "Decrypting (DecryptObject) a stream encrypted by the writer for object n, generation g gives back the data.", "quantifier": "every data, key, object number, encryption version the writer can be given", "why_tests_cant": "all data lengths modulo the block size", "anchors": ["core/write/writer.go:encryptStream", "core/encrypt/decrypt.go:DecryptObject"]}
{"id": "C35", "title": "Distinct passwords are distinguished", "statement": "Two different passwords of at most 32 bytes give different inputs to the key derivation (ISO 32000 pads with a fixed 32-byte string).", "quantifier": "every pair of passwords", "why_tests_cant": "pairs of passwords", "anchors": ["core/encrypt/key_derivation.go:DeriveEncryptionKey"]}
{"id": "C36", "title": "Rotation arithmetic", "statement": "RotatePage by a then by b sets the rotation to (start+a+b) mod 360; the stored value is always in 0..359; four quarter turns restore the original; angles other than 90, 180, 270 are rejected without change.", "quantifier": "every starting rotation (also negative or not reduced) and every sequence of rotations", "why_tests_cant": "histories of rotations", "anchors": ["core/manipulate/rotation.go:RotatePage"]}
{"id": "C37", "title": "Splitting covers every page once", "statement": "SplitPDFByPageCount(k) uses page ranges that concatenate to 1..total in order, each of k pages except a shorter non-empty last one.", "quantifier": "every page count and every k >= 1", "why_tests_cant": "all pairs (total,k)", "anchors": ["core/manipulate/splitting.go:SplitPDFByPageCount"]}
{"id": "C38", "title": "Deleting a page removes exactly that page", "statement": "After DeletePage(i) the Kids list is the old one without the i-th page, and /Count has gone down by one.", "quantifier": "every page tree and page number", "why_tests_cant": "needs object numbers that are suffixes of others; counts", "anchors": ["core/manipulate/deletion.go:DeletePage"]}
{"id": "C39", "title": "Merging renumbers without collisions and keeps references", "statement": "MergePDFs gives all objects of all inputs pairwise distinct new numbers, and every reference inside a copied object refers to the copy of its old target.", "quantifier": "every list of inputs, every iteration order", "why_tests_cant": "forward references and iteration order", "anchors": ["core/manipulate/merging.go:MergePDFs"]}
{"id": "C40", "title": "Page enumeration is the document order", "statement": "The pages listed are the leaves of the page tree from left to right; enumeration terminates on every input.", "quantifier": "every page tree, of any depth", "why_tests_cant": "depth and shape; cyclic trees", "anchors": ["core/manipulate/rotation.go:getPageObjectNumber", "content/extract/pages.go:extractPagesFromTree"]}
{"id": "C41", "title": "LCS matches are a longest common subsequence", "statement": "The matches found between two lists of text elements are strictly increasing in both lists, pair equal elements, and no common subsequence is longer.", "quantifier": "every pair of lists", "why_tests_cant": "optimality quantifies over all alternatives", "anchors": ["core/compare/myers_diff.go:findLCSMatches"]}
{"id": "C42", "title": "The element diff explains both texts", "statement": "The element-level diff accounts for both texts: every element of the first text is kept, modified or removed and every element of the second is kept, modified or added, each exactly once; kept elements are equal, removed and added ones keep their order.", "quantifier": "every pair of lists", "why_tests_cant": "all pairs", "anchors": ["core/compare/myers_diff.go:myersDiff"]}
{"id": "C43", "title": "Text comparison accounts for every element", "statement": "Every text element of page 1 is matched, reported as modified, or reported as removed, exactly once; every element of page 2 is matched, modified or added exactly once.", "quantifier": "every pair of pages and every tolerance", "why_tests_cant": "phases with marking arrays", "anchors": ["core/compare/text_diff.go:compareText"]}
{"id": "C44", "title": "A document compared with itself is identical", "statement": "Comparing a page, form or metadata with itself reports no difference.", "quantifier": "every document and option setting", "why_tests_cant": "duplicates and tolerance 0", "anchors": ["core/compare/compare.go:ComparePDFs", "core/compare/text_diff.go:compareText"]}
{"id": "C45", "title": "Form comparison is complete and sound", "statement": "A field is reported added/removed/modified exactly when it is only in the second/only in the first/in both with different values.", "quantifier": "every pair of forms", "why_tests_cant": "all pairs of maps", "anchors": ["core/compare/compare.go:compareForms"]}
{"id": "C46", "title": "Change ratio and text normalisation", "statement": "The change ratio is always between 0 and 1 and is 0 for equal texts; normalising text twice is the same as once.", "quantifier": "every pair of strings", "why_tests_cant": "all pairs", "anchors": ["core/compare/myers_diff.go:calculateChangeRatio", "core/compare/text_diff.go:normalizeTextForComparison"]}
{"id": "C47", "title": "Warnings are never lost or invented", "statement": "The collector returns exactly the warnings added since the last Clear while enabled, in order; filters return exactly the matching ones.", "quantifier": "every history of Add/Clear/Enable/Disable", "why_tests_cant": "histories", "anchors": ["types/warnings.go:WarningCollector"]}
{"id": "C48", "title": "Field lookup and validation", "statement": "ValidateFormData reports nothing exactly when every given value is for an existing field and satisfies its limits and every required field is present; FindFieldByName returns a field with the requested name.", "quantifier": "every form tree and form data", "why_tests_cant": "all trees", "anchors": ["forms/acroform/validation.go:ValidateFormData", "forms/acroform/extract.go:FindFieldByName"]}
{"id": "C49", "title": "Filling a form keeps the file readable", "statement": "After filling a field in place, the cross-reference table still locates every other object.", "quantifier": "every file and value", "why_tests_cant": "offsets of later objects depend on the length change", "anchors": ["forms/acroform/replace.go:ReplaceFieldObject"]}
{"id": "C50", "title": "Rebuilding an object stream keeps the other objects", "statement": "After RebuildObjectStream the other objects in the stream are read back unchanged and the updated ones with their new content.", "quantifier": "every stream and update set", "why_tests_cant": "header/offset arithmetic", "anchors": ["forms/acroform/stream_rebuild.go:rebuildStreamContent"]}
{"id": "C51", "title": "Font decoding priority", "statement": "Decoding a byte string with a font gives one character per code, taken from ToUnicode, else Differences, else the base encoding, else the code itself.", "quantifier": "every decoder state and byte string", "why_tests_cant": "all states", "anchors": ["content/extract/encoding.go:Decode", "content/extract/encoding.go:lookupCode"]}
{"id": "C52", "title": "Font subsets", "statement": "The subset never contains a character twice, contains every added printable character, and the glyph list is strictly increasing and contains glyph 0 and the glyph of every mapped subset character.", "quantifier": "every history of AddRune/AddString and every font", "why_tests_cant": "histories", "anchors": ["resources/font/font.go:AddRune", "resources/font/font.go:GetSubsetGlyphs"]}
{"id": "C53", "title": "Font parsing terminates and widths are right", "statement": "Parsing a cmap format 12 table terminates, and the width of a glyph is read from the glyph's own hmtx entry.", "quantifier": "every table, every glyph id", "why_tests_cant": "32-bit/16-bit wrap-around", "anchors": ["resources/font/font.go:parseCmapFormat12", "resources/font/font.go:GetWidths"]}
{"id": "C54", "title": "Adding bookmarks keeps the catalog intact", "statement": "After outlines are added, the rewritten catalog still holds every entry it held before with the same value, plus /Outlines.", "quantifier": "every catalog text and outline number", "why_tests_cant": "the catalog text is arbitrary; tests check one", "anchors": ["core/write/writer.go:updateCatalogWithOutlines"]}
{"id": "C55", "title": "PNG predictor decoding inverts PNG encoding", "statement": "Cross-reference stream data encoded with PNG predictors is decoded to the original rows, whatever filter type each row uses.", "quantifier": "every number of columns, every list of rows, every choice of filter per row", "why_tests_cant": "row history matters; tests use one file", "anchors": ["core/parse/object_stream.go:ParseXRefStreamFull"]}
{"id": "C56", "title": "What is written is what is read", "statement": "For every history of AddObject/SetObject/AddStreamObject calls, opening the written file with Open reports exactly the stored object numbers, and GetObject returns the stored body of each.", "quantifier": "every call history, every content", "why_tests_cant": "couples the writer's offsets and formatting with the reader's keyword searches for arbitrary contents", "anchors": ["core/write/writer.go:Write", "core/parse/api.go:Open", "core/parse/get_object.go:GetDirectObject"]}
{"id": "C57", "title": "Identical means equal content", "statement": "If the comparison reports two documents as identical then they have the same pages, texts, graphics, images, annotations, bookmarks and (unless ignored) metadata.", "quantifier": "every pair of documents and option setting", "why_tests_cant": "must hold for all pairs of documents", "anchors": ["core/compare/compare.go:ComparePDFsWithOptions", "core/compare/compare.go:compareGraphics", "core/compare/compare.go:compareAnnotations"]}
{"id": "C58", "title": "Image comparison accounts for every image", "statement": "Every image of page 1 is kept, modified, moved or removed and every image of page 2 is kept, modified, moved or added, exactly once; a moved image has the same data, a modified one different data under the same name and place.", "quantifier": "every pair of pages and image data", "why_tests_cant": "two passes with marking arrays over all pairs", "anchors": ["core/compare/compare.go:compareImagesWithBinary"]}
{"id": "C59", "title": "Conforming RC4 files open with their password", "statement": "A file encrypted at revision 2 to 4 by a conforming writer (ISO 32000-1 7.6.3, passwords padded with the fixed 32-byte string) opens with its user password.", "quantifier": "every password and every file", "why_tests_cant": "only files produced with the same code or with empty passwords are tried; the padding rule matters for all lengths", "anchors": ["core/encrypt/key_derivation.go:DeriveEncryptionKey", "core/encrypt/decrypt.go:DecryptPDF"]}
{"id": "C60", "title": "Opening an encrypted file never crashes", "statement": "DecryptPDF/Open and DecryptObject return an error or a result for every encryption dictionary and password; they never panic.", "quantifier": "every dictionary (version, revision, key length, strings) and password", "why_tests_cant": "the crash depends on combinations of values in the file that tests do not enumerate", "anchors": ["core/encrypt/key_derivation.go:DeriveEncryptionKey", "core/encrypt/decrypt.go:DecryptObject"]}
{"id": "C61", "title": "Encryption dictionary round trip", "statement": "The dictionary written by CreateEncryptionDictionary, placed in a file as the object the trailer's /Encrypt refers to, is parsed back with the same version, revision, key length, permissions, /O, /U, /UE, /OE and metadata flag.", "quantifier": "every encryption record within the integer ranges, every surrounding file", "why_tests_cant": "the strings are arbitrary bytes and the parser is a set of regular expressions over the whole text", "anchors": ["core/write/encryption_v5.go:CreateEncryptionDictionary", "core/encrypt/parser.go:ParseEncryptionDictionary"]}
{"id": "C62", "title": "Plain objects of encrypted files", "statement": "In an encrypted file written by the library, GetObject returns every non-stream object as it was added.", "quantifier": "every object content and key", "why_tests_cant": "only contents of particular lengths are damaged", "anchors": ["core/write/writer.go:Write", "core/parse/get_object.go:GetDirectObject", "core/encrypt/decrypt.go:DecryptObject"]}
{"id": "C63", "title": "An extracted document is self-contained", "statement": "ExtractPages and SplitPDF produce a document whose pages are the asked ones in the asked order, in which every object a page refers to is present and each page's parent is the new page tree; a page number outside the document is an error.", "quantifier": "every document and every list of page numbers", "why_tests_cant": "any reference graph behind a page, any position of the old parent entry, any object number", "anchors": ["core/manipulate/extraction.go:ExtractPages", "core/manipulate/splitting.go:SplitPDF"]}
{"id": "C64", "title": "Rebuild preserves the objects", "statement": "Rebuild writes every readable object of the opened document, edited or not, under its own number, and the rebuilt file gives the same object texts back.", "quantifier": "every document and object number", "why_tests_cant": "all objects of all documents", "anchors": ["core/manipulate/manipulate.go:Rebuild", "core/manipulate/manipulate.go:NewPDFManipulator"]}
{"id": "C65", "title": "Inserting a page puts it at the asked position", "statement": "InsertPage(p) makes the new page the p-th page of the document (the last one for 0 or a number beyond the end), leaves the others in order, and /Count goes up by one.", "quantifier": "every page tree and position", "why_tests_cant": "all kids arrays, layouts and positions", "anchors": ["core/manipulate/insertion.go:InsertPage"]}
{"id": "C66", "title": "Field types are recognised", "statement": "The parsed form classifies each field by /FT and /Ff as ISO 32000-1 does: text, choice (combo or list), signature, push button, radio button, check box; fields the library creates are classified as what they were created as.", "quantifier": "every /FT value and flag word", "why_tests_cant": "all 2^32 flag words", "anchors": ["forms/acroform/parser.go:mapFieldType", "forms/acroform/writer.go:FieldBuilder"]}
{"id": "C67", "title": "A created form is parsed back", "statement": "A form built with FieldBuilder and written is parsed back with the same fields in the same order, each with its name, type, flags, value, default, limit and options.", "quantifier": "every list of field definitions and all texts in them", "why_tests_cant": "any name, value, option text", "anchors": ["forms/acroform/writer.go:FieldBuilder", "forms/acroform/parser.go:ParseAcroForm"]}
{"id": "C68", "title": "Adding an appearance, an action or the form reference keeps the rest of the dictionary", "statement": "Adding an appearance stream, an action, an additional action or the /AcroForm entry inserts exactly that entry and leaves every other entry as it was, also when the dictionary already holds one.", "quantifier": "every dictionary text and entry", "why_tests_cant": "any existing text and nesting", "anchors": ["forms/acroform/appearance.go:AddAppearanceToField", "forms/acroform/actions.go:AddActionToField", "forms/acroform/writer.go"]}
{"id": "C69", "title": "Parsing a form terminates with its field tree", "statement": "Parsing the form terminates for every file, and the result holds exactly the readable objects reachable through /Kids, each with the attributes its text states.", "quantifier": "every object graph, cyclic ones included", "why_tests_cant": "all graphs", "anchors": ["forms/acroform/parser.go:parseField"]}
{"id": "C71", "title": "The character map of a font is the one in the file", "statement": "The glyph used for a character is the one the font's best Unicode cmap subtable gives it (format 4 and format 12 as OpenType defines them); characters the subtable does not map have no glyph, and nothing outside the table influences the result.", "quantifier": "every cmap table, every character", "why_tests_cant": "tables have arbitrary numbers of segments and groups; tests use one or two fonts", "anchors": ["resources/font/font.go:parseCmap", "resources/font/font.go:parseCmapFormat4", "resources/font/font.go:parseCmapFormat12"]}
{"id": "C72", "title": "No font file crashes the program", "statement": "Parsing a font file and reading its character map returns a result or an error; it never panics, whatever the bytes.", "quantifier": "every byte string", "why_tests_cant": "the byte strings are unbounded; the crashes need particular lengths and offsets (16-bit wrap-around, cut-off tables)", "anchors": ["resources/font/font.go:ParseTTF", "resources/font/font.go:parseName", "resources/font/font.go:parseCmap"]}
{"id": "C73", "title": "The ToUnicode map of an embedded font gives back its characters", "statement": "For every embedded font, reading the ToUnicode map that the library writes for it gives every used glyph the character it stands for, so that text shown with the font can be extracted.", "quantifier": "every character map, list of glyphs and map visiting order", "why_tests_cant": "all character maps and all Go map orders", "anchors": ["resources/font/pdf.go:createToUnicodeCMapData", "content/extract/encoding.go:ParseToUnicodeCMap"]}
{"id": "C74", "title": "ToUnicode maps are read faithfully", "statement": "Reading a ToUnicode map gives a font exactly the code-to-character pairs that the map lists, in single entries, ranges and arrays.", "quantifier": "every map text: any number of sections and entries, any white space", "why_tests_cant": "infinitely many maps", "anchors": ["content/extract/encoding.go:ParseToUnicodeCMap", "content/extract/encoding.go:parseBfcharBlock", "content/extract/encoding.go:parseBfrangeBlock"]}
{"id": "C75", "title": "Differences arrays are read faithfully", "statement": "Reading an encoding's Differences array gives each listed code the character of its glyph name and changes no other code.", "quantifier": "every array of numbers and names", "why_tests_cant": "infinitely many arrays", "anchors": ["content/extract/encoding.go:ParseDifferencesArray", "content/extract/encoding.go:glyphNameToUnicode", "content/extract/resources.go:extractFontDecoder"]}
{"id": "C76", "title": "Text built is text extracted", "statement": "Extracting from a content stream built with the content API gives, in order, exactly the texts that were shown, each with the font, size, spacing and rise in force when it was shown.", "quantifier": "every sequence of calls on a content stream: all operators, texts, fonts and numbers, with any font decoders", "why_tests_cant": "infinitely many call sequences and texts", "anchors": ["core/write/content.go:ContentStream", "content/extract/content_stream.go:parseContentStreamWithDecoders", "content/extract/content_stream.go:parseTextArrayWithDecoder"]}
{"id": "C77", "title": "Text positions are those of the page", "statement": "The position extracted for each text is the start of the line at which the text is shown.", "quantifier": "every sequence of calls that position and show texts", "why_tests_cant": "infinitely many call sequences", "anchors": ["core/write/content.go:SetTextPosition", "core/write/content.go:SetTextMatrix", "core/write/content.go:BeginText", "content/extract/content_stream.go:parseContentStreamWithDecoders"]}
{"id": "C78", "title": "Rectangles and lines extracted are those drawn", "statement": "The graphics extracted from a content stream are, in order, the rectangles and lines drawn, with the colours and the line width in force.", "quantifier": "every sequence of drawing calls", "why_tests_cant": "infinitely many call sequences", "anchors": ["core/write/content.go:Rectangle", "core/write/content.go:SetFillColorRGB", "content/extract/content_stream.go:parseContentStreamWithDecoders"]}
{"id": "C79", "title": "Images extracted are those drawn, where they are drawn", "statement": "The images extracted from a content stream are, in order, those drawn, each with the transformation in force: for an image drawn at a position and size, that position and size.", "quantifier": "every sequence of calls, every list of images, positions and sizes", "why_tests_cant": "infinitely many call sequences", "anchors": ["core/write/content.go:DrawImage", "core/write/content.go:DrawImageAt", "core/write/content.go:SetMatrix", "content/extract/content_stream.go:parseContentStreamWithDecoders"]}
{"id": "C83", "title": "Objects encrypted by other software are decrypted as the standard says", "statement": "For a file whose key is known, decrypting an object whose stored bytes were produced by the standard's algorithm (RC4 with the per-object MD5 key for /V 1 and 2; AES-CBC with the per-object key ending in sAlT for /V 4; AES-256 with the file key for /V 5) returns the plain data, and the library's own encryption stores exactly those bytes.", "quantifier": "every file key, object number, generation, initialisation vector and data", "why_tests_cant": "a round-trip test uses the same key derivation on both sides, so a derivation that differs from the standard still passes; only a statement against an independent specification for all numbers and data shows conformance", "anchors": ["core/encrypt/decrypt.go:DecryptObject", "core/write/writer.go:encryptStream"]}
{"id": "C80", "title": "The outline tree mirrors the bookmarks", "statement": "SetBookmarks stores exactly one outline item per bookmark, under fresh and pairwise different object numbers, and every item names the right parent, previous and next neighbour, first and last child, number of descendants, title, destination and action; the outline dictionary names the first and last top-level item and is their parent; no earlier object changes.", "quantifier": "every history of writer calls and every list of bookmarks nested to any depth, with any titles, destinations, links and page map", "why_tests_cant": "the tree has unbounded depth and width and the numbers are threaded through a recursion that patches earlier siblings; tests try one or two shapes", "anchors": ["core/write/bookmarks.go:SetBookmarks", "core/write/bookmarks.go:createOutlineItems", "core/write/bookmarks.go:addDictEntry"]}
{"id": "C81", "title": "Bookmarks survive writing and reading", "statement": "Bookmarks set with SetBookmarks, written with Write, opened with Open and read with ExtractBookmarks come back with the same titles, destinations, links, pages and nesting.", "quantifier": "every history of writer calls, every list of bookmarks", "why_tests_cant": "titles and nesting are arbitrary; a test compares a few fixed ones (or only their number)", "anchors": ["core/write/bookmarks.go:SetBookmarks", "content/extract/bookmarks.go:ExtractBookmarks", "content/extract/bookmarks.go:extractBookmarksRecursive"]}
{"id": "C82", "title": "Extracting bookmarks always finishes", "statement": "ExtractBookmarks returns (a result or an error) for every document, including one whose outline items refer to each other in a circle.", "quantifier": "every document", "why_tests_cant": "termination over all object graphs; a test that hangs or overflows the stack is simply not written", "anchors": ["content/extract/bookmarks.go:extractBookmarksRecursive"]}
{"id": "C70", "title": "The fall-back of Open gives a usable document", "statement": "When no cross-reference section can be read and Open falls back to the trailer keyword, it either returns an error or a document whose objects, catalogue and pages can be reached; it never crashes.", "quantifier": "every file", "why_tests_cant": "the damage a file can have is unbounded; a test opens a few damaged files and checks only that there is no error", "anchors": ["core/parse/api.go:parseStandard", "core/parse/parser.go:ParsePDFTrailer", "core/parse/parser.go:ParseCrossReferenceTableWithEncryption", "core/parse/xref_stream.go:ParseXRefStreamWithEncryption"]}
{"id": "C84", "title": "A built document has exactly the finalised pages", "statement": "After any sequence of builder calls, Bytes writes a catalog naming a page tree whose Kids are the pages in the order of the FinalizePage calls, Count is their number, every page names the tree as parent and carries the size, resources and content its page builder had at that moment, and all these objects are distinct.", "quantifier": "every history of SimplePDFBuilder/PageBuilder/PDFWriter calls that does not overwrite objects", "why_tests_cant": "histories are unbounded and interleave several page builders; a test builds a page or two", "anchors": ["core/write/page.go:SimplePDFBuilder", "core/write/page.go:FinalizePage", "core/write/page.go:Bytes"]}
{"id": "C85", "title": "A built document can be read back", "statement": "What SimplePDFBuilder.Bytes returns opens, and both page readers list exactly the finalised pages in order, with the text written for each.", "quantifier": "every history of builder calls", "why_tests_cant": "number of pages, resources and calls is unbounded; round-trip over all of them", "anchors": ["core/write/page.go:Bytes", "core/manipulate/manipulator.go:getAllPageObjectNumbers", "content/extract/extract.go", "core/parse/api.go:Open"]}
{"id": "C86", "title": "A resource name denotes the resource it was returned for", "statement": "Every name returned by AddStandardFont, AddImage or AddEmbeddedFont denotes, in the finished page, exactly the font or image that was added.", "quantifier": "every sequence of resource calls on a page builder, with every font and image name", "why_tests_cant": "collisions depend on the sequence of all earlier calls and names", "anchors": ["core/write/page.go:AddStandardFont", "core/write/page.go:AddImage", "core/write/page.go:AddEmbeddedFont"]}
{"id": "C87", "title": "Bytes may be called again", "statement": "Calling SimplePDFBuilder.Bytes a second time gives the same document, and the same calls always give the same bytes.", "quantifier": "every builder state and every map iteration order", "why_tests_cant": "Go's map iteration order is random and states are unbounded", "anchors": ["core/write/page.go:Bytes"]}
{"id": "C88", "title": "JPEG size is that of the frame header", "statement": "For every JPEG file, AddJPEGImage records the width, height and colour space of the frame header, and for any other byte sequence it returns an error and never crashes.", "quantifier": "every byte sequence", "why_tests_cant": "marker segments may have any number and content; a test has one or two files", "anchors": ["core/write/image.go:parseJPEGHeader", "core/write/image.go:AddJPEGImage"]}
{"id": "C89", "title": "An added image keeps its pixels", "statement": "AddImage stores, for every image, exactly its colours, and its transparency in a soft mask of the same size.", "quantifier": "every image of every kind, size and pixel content", "why_tests_cant": "images are unbounded; a test compares the size of one", "anchors": ["core/write/image.go:AddImage", "core/write/image.go:imageToRawData", "core/write/image.go:extractAlphaMask"]}
{"id": "C90", "title": "A watermark leaves the rest of the page alone", "statement": "AddWatermark shows exactly the given text or image and leaves the graphics state as it was, whether it succeeds or fails, and works with the documented defaults.", "quantifier": "every page state and all options", "why_tests_cant": "drawing states and options are unbounded", "anchors": ["core/write/watermark.go:AddWatermark"]}
{"id": "C91", "title": "Extracting a built document gives its pages", "statement": "Opening what DocumentBuilder wrote and extracting its content gives one page per finalised page, in order, with its size and with exactly the texts, positions, shapes and images that were drawn.", "quantifier": "every history of calls on a builder and every drawing", "why_tests_cant": "documents are unbounded; a test extracts one or two texts from one page", "anchors": ["content/extract/pages.go:ExtractPages", "content/extract/pages.go:extractPage", "content/extract/resources.go:extractFontDecoders", "core/write/builder.go:Build"]}
{"id": "C92", "title": "All content streams of a page are read, as one content", "statement": "A page whose /Contents is an array of streams is read as if the streams were one content, in the order of the array, however the array is written.", "quantifier": "every page text, every number of streams and every content", "why_tests_cant": "numbers of streams and their contents are unbounded, and so are the ways to write the array", "anchors": ["content/extract/pages.go:extractPage", "content/extract/pages.go:parseObjectRefArray"]}
{"id": "C93", "title": "Size and rotation of a page", "statement": "The media box, crop box, size and rotation of an extracted page are those the document gives it, inherited or its own, direct or indirect, whichever corners are given.", "quantifier": "every page text and every page tree", "why_tests_cant": "page texts and trees are unbounded", "anchors": ["content/extract/pages.go:extractPage", "content/extract/pages.go:extractArrayValue"]}
{"id": "C94", "title": "All annotations of a page, with kind, place, target and texts", "statement": "Extraction lists every annotation of a page in order with its kind, rectangle, link target and texts, and never crashes on an annotation.", "quantifier": "every page text, every number of annotations and every annotation text", "why_tests_cant": "annotation texts are unbounded; tests use a few hand-written ones", "anchors": ["content/extract/annotations.go:extractAnnotations", "content/extract/annotations.go:extractAnnotation"]}
{"id": "C95", "title": "Extracted images are the stored images", "statement": "The data, size, colour space and format of an extracted image are those of the stored image, for all images of all pages; a JPEG added to a document comes back byte for byte.", "quantifier": "every image, every file and every set of pages", "why_tests_cant": "image data are unbounded (and may contain any keyword)", "anchors": ["content/extract/images.go:extractImageData", "content/extract/images.go:ExtractAllImages", "core/write/image.go:AddJPEGImage"]}
{"id": "C96", "title": "Embedding a font adds linked objects and changes nothing else", "statement": "Embedding a TrueType font adds a font file, a descriptor, a ToUnicode map and a font dictionary under new numbers, linked to one another as ISO 32000 asks (/FontDescriptor, /FontFile2, /ToUnicode), changes no other object, and each written dictionary is valid.", "quantifier": "every history of writer calls, every font file and every set of characters", "why_tests_cant": "histories, fonts and character subsets are unbounded, and map iteration orders differ from run to run", "anchors": ["resources/font/pdf.go:ToPDFObjects", "core/write/page.go:AddEmbeddedFont"]}
{"id": "C97", "title": "Embedded widths are the glyph widths", "statement": "The /Widths of an embedded font give, for every code that is shown, the advance width of its glyph in thousandths of the em.", "quantifier": "every font file, every character subset and every map order", "why_tests_cant": "the widths depend on the tables of the font and the units per em, any of 16 bits", "anchors": ["resources/font/pdf.go:createFontDict", "resources/font/font.go:GetWidths"]}
{"id": "C98", "title": "Named encodings decode as ISO 32000 says", "statement": "A font with the base encoding WinAnsiEncoding, MacRomanEncoding or StandardEncoding (or, without one, its built-in encoding) decodes every code to the character annex D of ISO 32000 gives it, wherever the entry stands in the font.", "quantifier": "every font object text and every string of codes", "why_tests_cant": "font dictionaries are arbitrary texts around the entry; strings are unbounded", "anchors": ["content/extract/encoding.go:SetBaseEncoding", "content/extract/resources.go:extractFontDecoder"]}
{"id": "C99", "title": "The names of a font are its name records", "statement": "The family, full and PostScript names of a parsed font are the texts of its first non-empty name records with those identifiers, decoded by platform.", "quantifier": "every font file", "why_tests_cant": "name tables hold any number of records of any platform, pointing anywhere", "anchors": ["resources/font/font.go:parseName"]}
{"id": "C100", "title": "XFA fields are well-formed", "statement": "Every field that ParseXFAFields returns has a non-empty name, which is also its full name, a known type, and an identifier of letters, digits and underscores that is determined by its name; different fields have different identifiers.", "quantifier": "every XML text and every token sequence", "why_tests_cant": "templates are arbitrary XML of any length", "anchors": ["core/parse/xfa_parser.go:ParseXFAFields", "core/parse/xfa_parser.go:sanitizeFieldID", "core/parse/xfa_parser.go:mapXFATypeToFieldType"]}
{"id": "C101", "title": "Each field element of a template yields its field", "statement": "ParseXFAFields returns one field per field element, in document order, with the name, type, required flag, access, position, value and caption that the element states.", "quantifier": "every template", "why_tests_cant": "any number of fields with arbitrary content between them; state of the token loop carries over", "anchors": ["core/parse/xfa_parser.go:ParseXFAFields"]}
{"id": "C102", "title": "Updating XFA values changes exactly the named values", "statement": "UpdateXFAValues sets the value of each field named in the form data and leaves every other byte of the document as it is, whatever order Go walks the map in, and never fails on a well-formed document.", "quantifier": "every XFA document, every form data and every map order", "why_tests_cant": "documents and data are unbounded; map order is random", "anchors": ["forms/xfa/xfa.go:UpdateXFAValues", "forms/xfa/xfa.go:UpdateXFAFieldValues"]}
{"id": "C103", "title": "Replacing a stream replaces that stream only", "statement": "ReplaceStreamInPDF returns the file with the data of the given stream object and its length replaced and everything else unchanged, and does not modify the caller's bytes.", "quantifier": "every file, every object number, every new content and every capacity of the caller's slice", "why_tests_cant": "the result depends on lengths, on the spare capacity and on what other text looks like a header", "anchors": ["forms/xfa/xfa_utils.go:ReplaceStreamInPDF"]}
{"id": "C104", "title": "XFA streams survive building and extraction", "statement": "From the file that BuildFromXFA or BuildPDFFromXFAStreams writes, ExtractAllXFAStreams returns every stream under its name with the data it was given.", "quantifier": "every list of streams", "why_tests_cant": "names, data and compressed forms are arbitrary", "anchors": ["core/write/xfa_builder.go:BuildFromXFA", "forms/xfa/xfa.go:BuildPDFFromXFAStreams", "forms/xfa/xfa.go:ExtractAllXFAStreams"]}
{"id": "C105", "title": "UpdateXFAInPDF produces a readable file with the new values", "statement": "The file that UpdateXFAInPDF returns is a valid PDF whose datasets stream is the old one with the values of the form data set; UpdateXFAInPDF never crashes.", "quantifier": "every file and every form data", "why_tests_cant": "values change the length of the stream and so every offset after it", "anchors": ["forms/xfa/xfa.go:UpdateXFAInPDF", "forms/xfa/xfa.go:FindXFADatasetsStream"]}
{"id": "C106", "title": "Rebuilding with new XFA streams keeps the rest", "statement": "RebuildPDFFromXFAStreams returns a file in which each given stream has the new data and every other object and the catalog are as in the original; it reports a stream it cannot place and does not crash.", "quantifier": "every file and every set of streams", "why_tests_cant": "files hold any number of objects in any textual form", "anchors": ["forms/xfa/xfa.go:RebuildPDFFromXFAStreams", "core/write/xfa_builder.go:BuildFromOriginal", "core/write/xfa_builder.go:parseAllObjects", "core/write/xfa_builder.go:parseDictionary"]}
{"id": "C107", "title": "XFA datasets survive writing and reading", "statement": "ParseXFADatasets of the XML that DatasetsToXFA writes returns the fields, groups and values that were written.", "quantifier": "every datasets value: any tree of groups, any value kinds", "why_tests_cant": "names, nesting and value kinds are arbitrary", "anchors": ["forms/xfa/xfa_datasets_translator.go:DatasetsToXFA", "forms/xfa/xfa_datasets_translator.go:ParseXFADatasets"]}
{"id": "C108", "title": "Detect and Extract agree", "statement": "For every file, Extract returns a form exactly when Detect reports one, and the form has the type Detect reports.", "quantifier": "every file and password", "why_tests_cant": "the two functions make their own searches of the same bytes", "anchors": ["forms/forms.go:Detect", "forms/forms.go:Extract"]}
{"id": "C109", "title": "A built form is found with its values", "statement": "A file built with XFA streams is detected as XFA and its form returns the values of its datasets; a file built with an AcroForm is detected as AcroForm with its fields; Fill and Validate of the form act on what was asked.", "quantifier": "every set of fields and every set of streams", "why_tests_cant": "the detection searches the whole file text", "anchors": ["forms/forms.go:Detect", "forms/forms.go:Extract", "forms/forms.go:GetValues", "forms/forms.go:Fill", "forms/forms.go:Validate"]}
{"id": "C110", "title": "Errors keep their identity", "statement": "errors.Is on a PDFError, wrapped any number of times, recognises the codes and causes it was made from and nothing else; its text holds the code and the message.", "quantifier": "every chain of wrapped errors", "why_tests_cant": "chains have any length and mix kinds of errors", "anchors": ["types/errors.go:PDFError", "types/errors.go:WrapError"]}
{"id": "C111", "title": "Error classification is sound", "statement": "IsNotFound, IsEncryptionError, IsValidationError and GetErrorCode say of an error what errors.Is says of it, also when the error is wrapped.", "quantifier": "every error value", "why_tests_cant": "chains have any length", "anchors": ["types/errors.go:IsNotFound", "types/errors.go:IsEncryptionError", "types/errors.go:GetErrorCode"]}
{"id": "C112", "title": "The byte stream stays inside its data", "statement": "After any sequence of Seek, Read, ReadByte and Peek calls on a PDFStream its position is inside the data, no call crashes, and reads return the bytes of the data in order without loss or repetition.", "quantifier": "every data and every sequence of calls", "why_tests_cant": "call sequences are unbounded", "anchors": ["forms/xfa/stream.go:PDFStream", "forms/xfa/stream.go:Seek", "forms/xfa/stream.go:Read", "forms/xfa/stream.go:Peek"]}
{"id": "C113", "title": "An object is read at its cross-reference offset", "statement": "ReadObjectFromXRef, given the right offset of an object, returns that object.", "quantifier": "every file, object and offset", "why_tests_cant": "the header reader moves back and forth over arbitrary bytes", "anchors": ["forms/xfa/stream.go:ReadObjectFromXRef", "forms/xfa/stream.go:readObjectHeader"]}
{"id": "C114", "title": "A form built with FormBuilder is part of the document", "statement": "After AddPage, FormBuilder calls, BuildForm and Bytes on a document builder, the document written has the form in its catalog, its fields in the order added, and its widgets on their pages.", "quantifier": "every history of pages, fields and forms", "why_tests_cant": "histories of calls are unbounded", "anchors": ["forms/acroform/integration.go:BuildForm", "core/write/page.go:Bytes", "core/write/page.go:FinalizePage"]}
{"id": "C115", "title": "ExtractToDirectory writes what it reports", "statement": "After ExtractToDirectory succeeds, content.json describes the document, every image it lists is in a file of its own that holds exactly its data, the counts in the summary are those of what was written, and no other file of the directory is touched.", "quantifier": "every document, directory and pattern of file-system errors", "why_tests_cant": "the number of images and the errors of the file system are unbounded", "anchors": ["content/extract/directory.go:ExtractToDirectory"]}
{"id": "C116", "title": "Extraction to a directory is crash safe", "statement": "Wherever ExtractToDirectory stops - by an error or a crash between or within writes - content.json is either as it was before or this run's (perhaps cut short), and in the second case every image file it names is complete.", "quantifier": "every document, every crash point", "why_tests_cant": "crash points are as many as the bytes written", "anchors": ["content/extract/directory.go:ExtractToDirectory"]}
{"id": "C117", "title": "The comparison report says what was found", "statement": "GenerateReport says identical exactly when the comparison does, and lists every difference found.", "quantifier": "every comparison result", "why_tests_cant": "results have any number of pages and differences", "anchors": ["core/compare/report.go:GenerateReport", "core/compare/report.go:generatePageReport"]}
{"id": "C118", "title": "The command fills a form or leaves the files alone", "statement": "pdfer exits with 0 exactly when the output file holds the document updated with the data; on any failure it exits with 1 and no file (but the log) has changed; documents can be opened with their password, and -extract-schema gives the questions of the form.", "quantifier": "every combination of flags, files, library results, panics and write failures", "why_tests_cant": "failure points and file contents are unbounded", "anchors": ["cmd/pdfer/main.go:main", "cmd/pdfer/main.go:handleExtractSchema"]}
{"id": "C119", "title": "A form schema survives the round trip through XFA", "statement": "ParseXFAForm(FormToXFA(schema)) is the schema: title, questions with all their properties, rules.", "quantifier": "every schema, every map order, every indentation the decoder delivers", "why_tests_cant": "schemas have any number of questions, options and rules", "anchors": ["forms/xfa/xfa_form_translator.go:FormToXFA", "forms/xfa/xfa_form_translator.go:ParseXFAForm"]}
{"id": "C120", "title": "Every field of a template becomes a question", "statement": "ParseXFAForm never crashes and delivers every field of the template once, in order, with its name, type, label, default, options and scripts, and an identifier of its own.", "quantifier": "every token sequence; every template", "why_tests_cant": "templates nest to any depth", "anchors": ["forms/xfa/xfa_form_translator.go:parseXFAStructure", "forms/xfa/xfa_form_translator.go:convertXFAFieldToQuestion"]}
{"id": "C121", "title": "Locale sets survive being written and read", "statement": "A locale set written by LocaleSetToXFA and read by ParseXFALocaleSet has the same default locale and the same locales in order, with the same calendars (and holidays), currencies, date, time and number patterns and text settings.", "quantifier": "every locale set; every indentation by the encoder", "why_tests_cant": "sets have any number of locales and holidays and any texts", "anchors": ["forms/xfa/xfa_locale_translator.go:ParseXFALocaleSet", "forms/xfa/xfa_locale_translator.go:LocaleSetToXFA"]}
{"id": "C122", "title": "Connection sets survive being written and read", "statement": "A connection set written by ConnectionSetToXFA and read by ParseXFAConnectionSet has the same connections in order, with the same names, types, data descriptions and properties.", "quantifier": "every connection set; every iteration order of the maps; every indentation", "why_tests_cant": "maps are written in random order and hold any names", "anchors": ["forms/xfa/xfa_connection_translator.go:ParseXFAConnectionSet", "forms/xfa/xfa_connection_translator.go:ConnectionSetToXFA"]}
{"id": "C123", "title": "Configurations survive being written and read", "statement": "A configuration written by ConfigToXFA and read by ParseXFAConfig has the same sections, settings and properties.", "quantifier": "every configuration; every iteration order; every indentation", "why_tests_cant": "there are 2^n combinations of sections and settings with any values", "anchors": ["forms/xfa/xfa_config_translator.go:ParseXFAConfig", "forms/xfa/xfa_config_translator.go:ConfigToXFA"]}
{"id": "C124", "title": "Stylesheets survive being written and read", "statement": "A stylesheet written by StylesheetToXFA and read by ParseXFAStylesheet has the same styles in order, with the same names, types, parts and property values.", "quantifier": "every stylesheet; every iteration order; every indentation", "why_tests_cant": "property values are of any type and any text", "anchors": ["forms/xfa/xfa_stylesheet_translator.go:ParseXFAStylesheet", "forms/xfa/xfa_stylesheet_translator.go:StylesheetToXFA"]}
{"id": "C125", "title": "Reading a configuration or stylesheet never crashes", "statement": "Whatever the XML is, ParseXFAConfig and ParseXFAStylesheet return without a panic, although they use type assertions and nested pointers without checks.", "quantifier": "every sequence of XML tokens", "why_tests_cant": "elements nest and repeat in any way; the assertions depend on what earlier elements stored", "anchors": ["forms/xfa/xfa_config_translator.go:ParseXFAConfig", "forms/xfa/xfa_stylesheet_translator.go:ParseXFAStylesheet"]}
{"id": "C126", "title": "Filling a form changes the named fields and nothing else", "statement": "FillForm succeeds exactly when each named field can be read and replaced; names that no field has are passed over; on success the named fields have the new values, every other byte of the file is the same, and the file can be opened again.", "quantifier": "every file with an AcroForm, every map of names and values in every iteration order", "why_tests_cant": "a replacement moves everything behind it, so the second field of any file and the next reader depend on offsets that tests with one field never look at", "anchors": ["forms/acroform/fill.go:FillForm", "forms/acroform/fill_streams.go:FillFormFieldsWithStreams", "forms/acroform/replace.go:FillFormFields", "forms/acroform/integration.go:FillFormFromSchema"]}
{"id": "C127", "title": "The schema of a form describes its fields", "statement": "ExtractFormSchema has one question per field, in order, with a distinct identifier, and the field's name, label, type, choices with the chosen ones, length limit, flags, default value, place and page.", "quantifier": "every list of parsed fields", "why_tests_cant": "fields have any combination of attributes, and any number", "anchors": ["forms/acroform/parser.go:ToFormSchema", "forms/acroform/extract.go:ExtractFormSchema"]}
{"id": "C128", "title": "Validation against a schema is exact", "statement": "ValidateFormSchema reports nothing exactly when every given name is a question of the schema, every value keeps the limits of its question, and every required question is given; unknown and missing names are reported exactly; the iteration order of the map changes only the order of the reports.", "quantifier": "every schema, every map of names and values, every iteration order", "why_tests_cant": "limits, names (also repeated ones) and values are arbitrary", "anchors": ["forms/acroform/validation.go:ValidateFormSchema", "forms/acroform/validation.go:ValidateFieldValue"]}
{"id": "C129", "title": "The two validations agree", "statement": "Data is accepted by ValidateFormData for a form exactly when it is accepted by ValidateFormSchema for the schema of that form.", "quantifier": "every form, every map of names and values", "why_tests_cant": "two implementations of the same rules over arbitrary forms", "anchors": ["forms/acroform/validation.go:ValidateFormData", "forms/acroform/validation.go:ValidateFormSchema", "forms/acroform/parser.go:ToFormSchema"]}
{"id": "C130", "title": "DeletePages deletes the listed pages", "statement": "DeletePages removes exactly the pages with the given numbers, counted in the opened document, whatever the order of the list; it either removes all of them or, on an error, none.", "quantifier": "every document, every list of page numbers in every order", "why_tests_cant": "deleting shifts positions; whether later numbers are affected depends on the order and on the tree", "anchors": ["core/manipulate/deletion.go:DeletePages", "core/manipulate/deletion.go:DeletePage"]}
{"id": "C131", "title": "RotateAllPages turns every page once", "statement": "RotateAllPages by 90, 180 or 270 degrees adds the angle, modulo 360, to the rotation of every page of the document exactly once and changes no other object.", "quantifier": "every page tree, every start rotation", "why_tests_cant": "page trees have any depth and pages any number", "anchors": ["core/manipulate/rotation.go:RotateAllPages", "core/manipulate/rotation.go:RotatePage"]}
{"id": "C132", "title": "InsertPage adds one page and keeps the others", "statement": "InsertPage stores the new page, puts it at the asked position, refuses positions outside the document, and keeps all other pages; later calls count the new page.", "quantifier": "every document, position, object number and content, and every sequence of calls", "why_tests_cant": "object numbers may be in use; positions depend on earlier calls", "anchors": ["core/manipulate/insertion.go:InsertPage"]}
{"id": "C133", "title": "A parsed document is a faithful record of the file", "statement": "For every file ParsePDFDocument accepts, the document's bytes are the file, its raw header the beginning of the file, and every object of every revision is filed under its own number, is exactly the bytes of the file between its offsets, ends with its first endobj and begins before the end of its revision.", "quantifier": "every byte string the parser accepts", "why_tests_cant": "files of any size and number of revisions", "anchors": ["core/parse/document_parser.go:ParsePDFDocument", "core/parse/document.go:PDFDocument"]}
{"id": "C134", "title": "All queries on a parsed document agree", "statement": "GetObject returns exactly the object of the newest revision that has the number; AllObjects, GetRawObject and ObjectCount, and HasObject, ObjectCount and the offsets of a PDF opened with BytePerfect, say the same.", "quantifier": "every file, object number and list of revisions", "why_tests_cant": "revision histories are unbounded", "anchors": ["core/parse/document.go:GetObject", "core/parse/document.go:AllObjects", "core/parse/api.go:HasObject"]}
{"id": "C135", "title": "Reading loops end on every input", "statement": "The walk along /Prev links, the scan of a JPEG header and reading a format 4 character map end on every input, within a number of steps given by the size of the input.", "quantifier": "every byte string", "why_tests_cant": "termination is a statement about all inputs", "anchors": ["core/parse/incremental.go:findPrevOffset", "core/write/image.go:parseJPEGHeader", "resources/font/font.go:parseCmapFormat4"]}
{"id": "C136", "title": "Merging gives every object a number of its own", "statement": "MergePDFs numbers the objects of all inputs, the new catalog and the page tree 1, 2, 3, ... without a gap or repetition.", "quantifier": "every list of inputs with any object numbers", "why_tests_cant": "any number of files and objects", "anchors": ["core/manipulate/merging.go:MergePDFs"]}
{"id": "C137", "title": "Page selections and rotations check their arguments", "statement": "A selection with a page number outside the document, and a rotation by anything but 90, 180 or 270, is refused; a selection that succeeds has the pages asked for, as often and in the order asked for.", "quantifier": "every document, list of page numbers and angle", "why_tests_cant": "all lists of numbers", "anchors": ["core/manipulate/extraction.go:ExtractPages", "core/manipulate/rotation.go:RotatePage"]}
{"id": "C138", "title": "The warning collector says what happened", "statement": "After every history of adding, clearing, enabling and disabling, Warnings, Count, HasWarnings, FilterByLevel and GetByCode give the warnings added while enabled since the last clearing, in order.", "quantifier": "every history, initial state and growth of slices", "why_tests_cant": "histories are unbounded", "anchors": ["types/warnings.go:WarningCollector"]}
{"id": "C139", "title": "Without object streams, writing is deterministic", "statement": "A writer that does not use object streams writes the same bytes whatever the order in which the runtime goes through its maps.", "quantifier": "every writer state and pair of iteration orders", "why_tests_cant": "Go randomises map order at every run", "anchors": ["core/write/writer.go:Write"]}
{"id": "C140", "title": "A file encrypted by the library opens with its user password", "statement": "What SetupAES256Encryption made is unlocked by the user password, and everything encrypted under it is decrypted to the same data.", "quantifier": "every pair of passwords, file identifier, permissions, random bytes, object and data", "why_tests_cant": "passwords, randomness and data are unbounded", "anchors": ["core/write/encryption_v5.go:SetupAES256Encryption", "core/encrypt/decrypt.go:DecryptObject"]}
{"id": "C141", "title": "Object keys for RC4 and AES-128 are those of the standard", "statement": "Data encrypted by another program with the key of ISO 32000-1 Algorithm 1 is decrypted, for RC4 and AES-128; what the library encrypts with AES-128 uses that key.", "quantifier": "every key, object number, generation and data", "why_tests_cant": "two programs must agree on all keys", "anchors": ["core/encrypt/decrypt.go:DecryptObject", "core/write/writer.go:encryptStream"]}
{"id": "C142", "title": "Comparison: no false metadata, image or form differences; page list exact", "statement": "Comparing something with itself reports no difference in metadata, images or form; a page is in the list of differences exactly when both files have it and it differs or only one has it.", "quantifier": "all documents and options", "why_tests_cant": "documents are unbounded", "anchors": ["core/compare/compare.go:compareMetadata", "core/compare/compare.go:compareImagesWithBinary", "core/compare/compare.go:compareForms", "core/compare/compare.go:comparePages"]}
{"id": "C143", "title": "ValidateFormData accepts exactly the valid data", "statement": "ValidateFormData returns no error exactly when every entry names a field that takes the value and every required field of the two levels it looks at has an entry under its full name.", "quantifier": "every form and all data", "why_tests_cant": "forms and data are unbounded", "anchors": ["forms/acroform/validation.go:ValidateFormData"]}
{"id": "C144", "title": "Replacing an object changes that text only", "statement": "ReplaceFieldObject changes exactly the text between the first header of the object and the first endobj behind it, fails exactly when there is none, and keeps every other byte.", "quantifier": "every file, object number and new text", "why_tests_cant": "all byte strings", "anchors": ["forms/acroform/replace.go:ReplaceFieldObject"]}
{"id": "C145", "title": "No XFA template crashes the reader", "statement": "ParseXFAForm returns a schema for every sequence of XML tokens, and every question in it has a valid identifier.", "quantifier": "every token sequence", "why_tests_cant": "malformed templates are unbounded", "anchors": ["forms/xfa/xfa_form_translator.go:ParseXFAForm"]}
{"id": "C146", "title": "No small font crashes the parser", "statement": "ParseTTF does not crash on any input below 64 KiB; the width list of an accepted font and format 12 character maps never crash.", "quantifier": "every byte string below 64 KiB, every glyph list", "why_tests_cant": "all malformed fonts", "anchors": ["resources/font/font.go:ParseTTF", "resources/font/font.go:GetWidths"]}
{"id": "C147", "title": "JPEG data is stored and extracted unchanged", "statement": "A JPEG that AddJPEGImage accepts is extracted with the same bytes, the reported size and colour space.", "quantifier": "every accepted JPEG and writer state", "why_tests_cant": "image data is unbounded", "anchors": ["core/write/image.go:AddJPEGImage", "content/extract/images.go:extractImageData"]}
{"id": "C148", "title": "The exit status of the command line tool is right", "statement": "Exit status 0 means that the output file holds the filled form and all other files but the log are as they were; any failure has status 1 and leaves every file but the log alone, unless the disk failed while the output was written.", "quantifier": "every file system, arguments and outcome of the steps", "why_tests_cant": "all failure points", "anchors": ["cmd/pdfer/main.go:main"]}
{"id": "C149", "title": "Flattening takes out the references to the form and nothing else", "statement": "FlattenForm of a file that opens and has an AcroForm returns the file with every reference to the form (/AcroForm n g R) left out and every other byte as it was; a file with one reference has none afterwards. The fields stay visible: their appearance is part of the pages.", "quantifier": "every file, every place of the references", "why_tests_cant": "The claim is about all bytes around the references, and about references that come about by taking out others", "anchors": ["forms/acroform/flatten.go:FlattenForm", "forms/acroform/flatten.go:FlattenField"]}
{"id": "C150", "title": "Reading the appearance of a field", "statement": "GetFieldAppearance of a field whose /AP dictionary names a normal appearance returns the content of the stream of that object, whatever else the field and the object contain.", "quantifier": "every field and appearance, every layout of white space, every content", "why_tests_cant": "Any text may stand around the keys and any content in the stream; tests use single-line contents", "anchors": ["forms/acroform/flatten.go:GetFieldAppearance", "forms/acroform/flatten.go:AddAppearanceStream"]}
{"id": "C151", "title": "Made appearances show what was asked for", "statement": "CreateCheckboxAppearance, CreateTextAppearance and CreateButtonAppearance each add one form XObject with the given bounding box under a fresh object number and change nothing else; the content shows the state, or a string that reads back as the text or label, in the font and size asked for.", "quantifier": "every writer, text, size, font name and state", "why_tests_cant": "The text ranges over all strings, with parentheses, backslashes and non-ASCII characters", "anchors": ["forms/acroform/appearance.go:CreateCheckboxAppearance", "forms/acroform/appearance.go:CreateTextAppearance", "forms/acroform/appearance.go:CreateButtonAppearance"]}
{"id": "C152", "title": "Document metadata survives a file", "statement": "After SetMetadata and any later calls that do not touch the Info dictionary, the file written and opened again gives ExtractMetadata exactly the given texts and custom fields, the dates as PDF dates that say the same moment, the current time as the date of the last change if none was given, the version of the file, the number of its pages, and whether it is encrypted.", "quantifier": "every history of writer calls before and after, every metadata value and custom field, every current time", "why_tests_cant": "Values, keys and histories are unbounded; escaping, the order of the map and the reader's patterns interact on inputs no test lists", "anchors": ["core/write/metadata.go:SetMetadata", "content/extract/metadata.go:ExtractMetadata", "content/extract/metadata.go:parseInfoDict"]}
{"id": "C153", "title": "Dates are kept to the second", "statement": "A date given to SetMetadata as ISO 8601 (with a zone, in UTC, without a zone, with a space, or a day only) is stored as a PDF date that denotes the same local time and offset; a text that is no date is not silently replaced.", "quantifier": "every valid date, time and zone, in every accepted form", "why_tests_cant": "All dates of ten thousand years with every offset, including leap days and negative zones", "anchors": ["core/write/metadata.go:formatPDFDate"]}
{"id": "C154", "title": "Metadata from a map of fields", "statement": "NewMetadataFromFields puts the value of each key, in any case and spelling, in its field and every other key among the custom fields; the result does not depend on the order in which the map is walked.", "quantifier": "every map of fields and every order of its entries", "why_tests_cant": "Go's map order is random, so a test sees some orders only", "anchors": ["core/write/metadata.go:NewMetadataFromFields", "core/write/metadata.go:SetMetadataFields"]}
{"id": "C155", "title": "Opening a file never crashes", "statement": "Open returns a document or an error, and so does GetObject, for every file: neither ends in a run-time panic, however damaged the file is.", "quantifier": "every byte string given as a file, with or without encryption, whatever decompression and decryption return, and every object number", "why_tests_cant": "The space of damaged files is unbounded; a crash needs an offset that points at particular bytes near the end", "anchors": ["core/parse/api.go:Open", "core/parse/object_stream.go:ParseXRefStreamFull", "core/parse/xref_stream.go:ParseXRefStream", "core/parse/incremental.go:findPrevOffset", "core/parse/get_object.go:GetDirectObject"]}
{"id": "C156", "title": "The content of a document is that of its pages", "statement": "ExtractContent succeeds exactly when the pages can be extracted; the document it returns has these pages, their annotations in page order, and one entry for every image and every font of the pages.", "quantifier": "every list of pages, every resource dictionary, every order in which Go walks its maps", "why_tests_cant": "Go's map order is random and names may be shared between pages in any pattern", "anchors": ["content/extract/extract.go:ExtractContent"]}
{"id": "C157", "title": "A filter is found by its name", "statement": "DecodeFilter reads what the encoder of the named filter wrote, with or without the slash in the name; JPEG data are passed on unchanged and only if they begin as JPEG data do; under any other name there is an error and never wrong data.", "quantifier": "all data and all filter names", "why_tests_cant": "Data and names range over all byte strings", "anchors": ["core/parse/filters.go:DecodeFilter", "core/parse/filters.go:DecodeDCTDecode", "core/parse/filters.go:EncodeDCTDecode"]}
{"id": "C158", "title": "XFA streams survive the loss of the cross-reference table", "statement": "If a file written by BuildFromXFA is cut off anywhere after its last object and before its startxref, ExtractAllXFAStreams still returns every stream with its data, and no other.", "quantifier": "every list of streams and every point at which the file is cut", "why_tests_cant": "The cut can be at any byte and the streams hold any data", "anchors": ["forms/xfa/xfa.go:ExtractAllXFAStreams", "forms/xfa/xfa_utils.go:extractStreamFromPDF", "forms/xfa/xfa_utils.go:findObjectBoundaries", "core/parse/parser.go:FindObjectByNumber"]}
{"id": "C159", "title": "The context of an error is its own", "statement": "The context of an error holds, at every key, what was last given to WithContext on this error and nothing that was given to another; a created error is a new one, and its code, message and cause never change.", "quantifier": "every history of NewPDFError, WrapError and WithContext calls, interleaved in any way", "why_tests_cant": "Errors are shared by reference and the calls of different parts of a program interleave in any order", "anchors": ["types/errors.go:WithContext", "types/errors.go:NewPDFError", "types/errors.go:WrapError", "types/errors.go:ErrObjectNotFound", "types/warnings.go:WithContext"]}
{"id": "C160", "title": "What a conforming encryption dictionary states is what is read", "statement": "ParseEncryptionDictionary returns the version, revision, key length, permission word, /O and /U that the dictionary of a conforming file states, and ExtractFileID the identifier its trailer states, also when the binary values are literal strings.", "quantifier": "every dictionary of the standard security handler before revision 5 (all versions, key lengths, permission numbers, /O and /U strings, escaped as the standard demands) at any place of any file", "why_tests_cant": "/O, /U and the identifier are binary digests: any byte can occur at any place, and which bytes must be escaped depends on the passwords", "anchors": ["core/encrypt/parser.go:ParseEncryptionDictionary", "core/encrypt/key_derivation.go:ExtractFileID", "core/encrypt/decrypt.go:DecryptPDF"]}
{"id": "C161", "title": "A document protected by passwords opens with each of them", "statement": "After SetupEncryptionWithPasswords the written file opens with the user password and with the owner password, and every stream object comes back with its plain data and the dictionary stored with it, whatever was stored before and after the call.", "quantifier": "every two passwords, permission word, random values, file identifier and history of writer calls before and after", "why_tests_cant": "the encryption dictionary is found again by searching the file for words; whether that works depends on everything else in the file, and the keys on random values", "anchors": ["core/write/encryption_helper.go: SetupEncryptionWithPasswords", "core/write/writer.go: Write, encryptStream", "core/encrypt/*.go: ParseEncryptionDictionary, DecryptPDF", "core/parse/get_object.go: GetObject"]}
{"id": "C162", "title": "A protected file shows nothing of its content without a password", "statement": "The bytes of a file written with encryption depend on the content stored - stream data and objects - only through cipher texts.", "quantifier": "every pair of histories that differ in the content stored, every pair of passwords", "why_tests_cant": "it is a statement about pairs of runs with all contents; a test can look only for known pieces of text in one file", "anchors": ["core/write/writer.go: Write, encryptStream, AddObject, AddStreamObject", "core/write/encryption_helper.go: SetupEncryptionWithPasswords"]}
{"id": "C163", "title": "The checked fill functions fill exactly as FillForm does", "statement": "ExtractAndFill and FillFormFromSchema produce the same file, or the same error, as FillForm on the same data, whether or not the data is valid; the only thing validation adds is a list of warnings, which is empty exactly when the data keeps the rules of the form or schema (or the form cannot be extracted).", "quantifier": "every input file, schema and data map", "why_tests_cant": "a test can compare the two for chosen forms only; the claim is that no form, value or failing rule makes the checked functions change, drop or refuse a value", "anchors": ["forms/acroform/integration.go: ExtractAndFill, FillFormFromSchema", "forms/acroform/validation.go: ValidateFormData", "forms/acroform/fill.go: FillFormFields"]}
{"id": "C164", "title": "All readers of cross-reference streams find the same objects", "statement": "For the same file and start offset ParseXRefStream, ParseXRefStreamFull and ParseCrossReferenceTable succeed and fail together and report the same offset for every object that is not in an object stream.", "quantifier": "every file, start offset and decompressor; in particular every file the writer can produce", "why_tests_cant": "the agreement of two independently written parsers on all inputs cannot be sampled", "anchors": ["core/parse/xref_stream.go: ParseXRefStream, ParseXRefStreamWithEncryption", "core/parse/object_stream.go: ParseXRefStreamFull", "core/parse/parser.go: ParseCrossReferenceTable", "core/write/xref_stream.go: writeXRefStream"]}
{"id": "C165", "title": "Comparison in the other order", "statement": "Comparing document 2 with document 1 gives the same verdict and the same number of differences per page as comparing 1 with 2, with additions and removals exchanged.", "quantifier": "every pair of documents and all comparison options", "why_tests_cant": "the matching is greedy and runs over the elements of the first document in order; that its result does not depend on the order is a statement about all sequences of elements", "anchors": ["core/compare/compare.go: ComparePDFsWithOptions, compareSinglePage, compareGraphics, compareForms, compareMetadata, compareImagesWithBinary", "core/compare/text_diff.go", "core/compare/myers_diff.go"]}
{"id": "C166", "title": "Sequences of page operations", "statement": "In any sequence of RotatePage, DeletePage and InsertPage calls every page number means the page it meant when the file was opened; every page ends up turned by the sum of the turns asked of it, whatever other calls stand between them; turns of different pages, and turns and deletions of any pages, may be exchanged without changing the result or which calls succeed.", "quantifier": "every file, every sequence of calls and every order", "why_tests_cant": "the histories of calls are unbounded and their interleavings grow exponentially; tests try one or two calls", "anchors": ["core/manipulate/rotation.go: RotatePage, getPageObjectNumber, getAllPageObjectNumbers", "core/manipulate/deletion.go: DeletePage, findParentPagesObject", "core/manipulate/insertion.go: InsertPage"]}
{"id": "C167", "title": "XFA streams of an encrypted file", "statement": "Reading the XFA streams of an encrypted file gives the decrypted streams, leaves the caller's bytes as they were, gives the same answer when repeated and never brings the program down; when the AcroForm has to be searched for in a damaged file, the part that is decrypted and the generation it is decrypted with are those of the object.", "quantifier": "every file, cipher, algorithm number, slice capacity and object number", "why_tests_cant": "whether appending to a part of the caller's slice overwrites the file depends on lengths and capacities, the offset search on what every wrong decryption looks like; tests run one file once and do not look at its bytes afterwards", "anchors": ["forms/xfa/xfa.go: ExtractAllXFAStreams", "forms/xfa/xfa_utils.go: findAndDecryptAcroForm, decryptInChunks, extractGenerationNumber, extractStreamFromPDF, findObjectBoundaries"]}
{"id": "C168", "title": "Objects read through their offset: dictionaries", "statement": "ReadObjectFromXRef gives back the object: unencrypted as it stands in the file, encrypted with the keys in the clear and every value decrypted; the dictionary of an object is read with exactly its keys and values, however its values are nested, and reading comes to an end for every file.", "quantifier": "every file, cipher, dictionary with any number of entries and any nesting of arrays, strings and dictionaries", "why_tests_cant": "nesting and number of entries are unbounded and the reader scans raw bytes for brackets; whether it ends depends on the last byte of a decrypted object", "anchors": ["forms/xfa/stream.go: ReadObjectFromXRef, parseDictionaryFromStream, readNameObject, readPDFObject, decryptParsedDictionary, reconstructDictionary"]}
