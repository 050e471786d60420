{"id": "C01", "title": "The ordered map behaves as a finite map", "statement": "Starting from an empty fm::map (or fm::set), after any sequence of insert, erase, operator[] and clear calls, find(k) returns the value most recently stored under k if k was stored and not erased since, and end() otherwise. Operations on one key never change what is found for another key, and no operation dereferences a missing node.", "quantifier": "all key types with a strict total order, all finite operation histories, all keys and values", "why_tests_cant": "The tree is restructured by rotations whose shape depends on the whole history; a finite set of histories cannot reach every rotation pattern.", "anchors": ["FMath/FMTree.h: fm::tree::insert, erase, find, operator[], clear, rotateLeft, rotateRight"]}
{"id": "C02", "title": "The ordered map stays balanced", "statement": "After any history of insertions and erasures, the recorded balance factor of every node of an fm::map is the real depth difference and lies in {-1,0,1}, so the depth is at most logarithmic in the number of entries (Fib(depth+2) <= entries+1, hence depth <= 2*log2(entries+1)) and find visits at most depth nodes.", "quantifier": "all histories, all sizes", "why_tests_cant": "Balance is an inductive invariant of the rebalancing loops; an error in one balance-factor update only shows on particular shapes and degrades silently.", "anchors": ["FMath/FMTree.h: fm::tree::insert, erase, rotateLeft, rotateRight, node::weight"]}
{"id": "C03", "title": "Map iteration is in strictly increasing key order, forward and backward", "statement": "Walking an fm::map from begin() with ++ visits every entry exactly once in strictly increasing key order and then reaches end(); walking from last() with -- visits the same entries in the reverse order; -- undoes ++ at every position that is not the last.", "quantifier": "all reachable maps, all positions", "why_tests_cant": "Iterator steps climb parent chains of unbounded length; correctness at each position depends on the shape of the whole tree.", "anchors": ["FMath/FMTree.h: fm::tree::iterator::operator++, operator--, begin, end, last"]}
{"id": "C04", "title": "Map size and emptiness are exact", "statement": "size() of an fm::map equals the number of distinct keys present after any history, empty() holds exactly when it is zero, and copying a map with operator= gives a map with equal contents while leaving the source unchanged.", "quantifier": "all histories; all source and target maps that are different objects", "why_tests_cant": "The counter is updated separately from the structure, in several branches (overwrite, miss, erase of a missing key).", "anchors": ["FMath/FMTree.h: fm::tree::size, empty, insert, erase, clear, operator="]}
{"id": "C05", "title": "The vector refines a sequence and never leaves its buffer", "statement": "After any history of push_back, insert (one value or a range), erase (one position, a range), replace, resize, reserve, pop_back, clear and assignment with in-range arguments, an fm::vector holds exactly the sequence an ideal list would hold, its capacity is at least its size, and every element move it performs stays inside the allocated buffer.", "quantifier": "all element values, all finite operation histories with in-range positions, all sizes", "why_tests_cant": "Growth and memmove offsets depend on the size/capacity pair, which takes unboundedly many values over histories.", "anchors": ["FMath/FMArray.h: fm::vector::insert, erase, resize, reserve, replace, pop_back, push_back, operator="]}
{"id": "C06", "title": "Passing a vector one of its own elements", "statement": "v.push_back(v[i]) and v.insert(p, v[i]) insert the value v[i] had before the call.", "quantifier": "all vectors, positions p and indices i; with and without spare capacity", "why_tests_cant": "Whether the referenced element survives depends on reallocation and element moves, and an undefined read often returns the right bytes in a test.", "anchors": ["FMath/FMArray.h: fm::vector::insert(iterator, const T&), push_back"]}
{"id": "C07", "title": "Sorting yields an ordered permutation", "statement": "fm::comparator/pointercomparator sorting of an array leaves a permutation of the input in which no later element compares below an earlier one, touches only the sorted range and always terminates.", "quantifier": "all arrays of any length, any total preorder comparison", "why_tests_cant": "Quicksort partition boundaries fail on particular inputs (duplicates, pivots at the ends); only induction covers all of them.", "anchors": ["FMath/FMSort.h: fm::sorter, quickSort"]}
{"id": "C08", "title": "Strings stay NUL-terminated and equal the text they were given", "statement": "After any history of construction from text, append, insert, erase, substr, resize, clear, pop_back on non-empty text and assignment, an fm::string's buffer ends with exactly one terminator after its content, length() is the content length, and the content is what the same edits give on an ideal character sequence.", "quantifier": "all histories, all NUL-free texts, all in-range positions", "why_tests_cant": "The buffer has two representations of the empty string and many editing paths that each handle the terminator separately.", "anchors": ["FUtils/FUString.h: fm::stringT constructors, append, insert, erase, substr, resize, pop_back, length"]}
{"id": "C09", "title": "String searches return the first or last match", "statement": "find(c), find(text), rfind(c), rfind(text), find_first_of(set) and find_last_of(set) return the position of the first (last) occurrence at or after (before) the given bound, and npos exactly when there is none.", "quantifier": "all subject strings, all patterns, all start positions", "why_tests_cant": "Each search is a hand written pointer loop with its own boundary conditions; agreement with the definition must hold for every string.", "anchors": ["FUtils/FUString.h: fm::stringT::find, rfind, find_first_of, find_last_of"]}
{"id": "C10", "title": "The string builder holds the concatenation of what was appended", "statement": "After any history of append (character, text, builder, decimal integer, hexadecimal byte), pop_back, clear, set and remove, an FUStringBuilder's text is the concatenation of the pieces, and every write is inside the reserved buffer.", "quantifier": "all histories, all appended pieces, any initial reserve", "why_tests_cant": "Buffer growth happens at input dependent moments; an off-by-one in the growth test needs one exact length.", "anchors": ["FUtils/FUStringBuilder.h/.hpp: FUStringBuilderT::append, enlarge, reserve, ToCharPtr, clear, pop_back"]}
{"id": "C11", "title": "Unsigned decimal text round trip", "statement": "Appending any uint32 to a string builder and parsing the text with FUStringConversion::ToUInt32 returns the same number; the text is the canonical decimal numeral.", "quantifier": "all 2^32 values", "why_tests_cant": "2^32 values and a digit loop; a test samples a few.", "anchors": ["FUtils/FUStringBuilder.hpp: append(uint32)", "FUtils/FUStringConversion.hpp: ToUInt32"]}
{"id": "C12", "title": "Signed decimal text round trip", "statement": "Appending any int32, including the minimum, to a string builder and parsing it with FUStringConversion::ToInt32 returns the same number.", "quantifier": "all 2^32 values", "why_tests_cant": "The minimum value and the sign path are individual points in a space of 2^32.", "anchors": ["FUtils/FUStringBuilder.hpp: append(int32)", "FUtils/FUStringConversion.hpp: ToInt32"]}
{"id": "C13", "title": "Hexadecimal text round trip", "statement": "Appending any integer with appendHex and parsing with FUStringConversion::HexToUInt32 (with a digit count at least the number of digits written) returns the same number.", "quantifier": "all uint8/uint16/uint32 values, any following text", "why_tests_cant": "The parser stops on count or on the first non-hex character; all combinations matter for XML escapes.", "anchors": ["FUtils/FUStringBuilder.hpp: appendHex", "FUtils/FUStringConversion.hpp: HexToUInt32"]}
{"id": "C14", "title": "Integer lists survive being written and read", "statement": "Writing any list of integers as blank-separated text and reading it back with ToInt32List/ToUInt32List gives the same list; the reader yields one number per blank-separated token.", "quantifier": "all lists of any length, any previous content of the target list", "why_tests_cant": "Reuse of previously allocated entries, separators and the end of text interact; lists are unbounded.", "anchors": ["FUtils/FUStringConversion.hpp: ToInt32List, ToUInt32List, ToString(list)"]}
{"id": "C15", "title": "Text parsers never read past the terminator", "statement": "Every number/list parser in FUStringConversion, given any NUL-terminated text, only reads characters at or before the terminator and leaves the cursor at or before it.", "quantifier": "all NUL-terminated character sequences, valid or not", "why_tests_cant": "Over-reads are silent; the bad input is one particular malformed text.", "anchors": ["FUtils/FUStringConversion.hpp: ToInt32, ToUInt32, HexToUInt32, ToFloat, CountValues, ToInt32List, ToUInt32List"]}
{"id": "C16", "title": "Base64 round trip", "statement": "Decoding the Base64 encoding of any byte sequence returns the same bytes, with the exact length.", "quantifier": "all byte sequences of any length up to the int range", "why_tests_cant": "Three padding cases and an unbounded length; bit shuffling errors hit single bit positions.", "anchors": ["FUtils/FUBase64.cpp: FUBase64::encode, decode"]}
{"id": "C17", "title": "Base64 output format", "statement": "The encoder emits exactly the RFC 4648 text: groups of four alphabet characters per three bytes, with one or two '=' for a final group of two or one byte.", "quantifier": "all byte sequences", "why_tests_cant": "Interoperability is about every input; equality with an independent definition is the only complete check.", "anchors": ["FUtils/FUBase64.cpp: encode, EncodeByteTriple, alphabet"]}
{"id": "C18", "title": "Base64 decoding of arbitrary text is memory safe", "statement": "Decoding any text, well formed or not, reads only inside the input.", "quantifier": "all texts", "why_tests_cant": "Malformed inputs are unbounded, and an over-read is not observable in a test.", "anchors": ["FUtils/FUBase64.cpp: decode, DecodebyteQuartet"]}
{"id": "C19", "title": "The checksum is the standard CRC-32", "statement": "FUCrc32::CRC32 of a text equals the bit-by-bit CRC-32 of its bytes (reflected polynomial 0x04C11DB7, initial value and final complement as implemented), and the built-in table equals the one the generator defines for each of the 256 entries.", "quantifier": "all NUL-terminated texts", "why_tests_cant": "256 table constants and unbounded inputs; a wrong entry shows only on inputs using it.", "anchors": ["FUtils/FUCrc32.cpp: CRC32, crcTable, GenerateCRC32Table, Reflect"]}
{"id": "C20", "title": "The checksum detects every short burst of damage", "statement": "Two texts of the same length that differ only within a window of 32 consecutive bits have different checksums.", "quantifier": "all texts, all non-zero damage patterns confined to 4 consecutive bytes", "why_tests_cant": "An algebraic property over all inputs and error patterns.", "anchors": ["FUtils/FUCrc32.cpp: CRC32"]}
{"id": "C21", "title": "The unique name map never hands out a name twice", "statement": "FUUniqueStringMap::insert always leaves the caller with a name that was not registered before the call, over any history of insert and erase.", "quantifier": "all histories of insert/erase, all names", "why_tests_cant": "Collisions need particular numeric suffixes, up to 2^32 - 1, and a history that creates them.", "anchors": ["FUtils/FUUniqueStringMap.cpp: insert, SplitString"]}
{"id": "C22", "title": "The unique name map remembers exactly the registered names", "statement": "contains(name) holds exactly for the names inserted (under the name handed out) and not erased since, for names written with a canonical numeric suffix; erase removes that name only.", "quantifier": "all histories, all names", "why_tests_cant": "Names are split in prefix and number: aliasing of distinct names depends on their exact digits.", "anchors": ["FUtils/FUUniqueStringMap.cpp: insert, contains, erase, SplitString"]}
{"id": "C23", "title": "URI parsing recovers the components", "statement": "Parsing scheme://user@host:port/path?query#fragment text built from components free of delimiter characters yields those components.", "quantifier": "all component texts free of delimiters, each optional component present or absent", "why_tests_cant": "Delimiter searches interact; the failing combinations are specific.", "anchors": ["FUtils/FUUri.cpp: FUUri::FUUri(const fstring&, bool)"]}
{"id": "C24", "title": "Path stacks: relative then absolute returns the original file", "statement": "For a document path and a file path on the same root, making the file path relative to the document folder and resolving it again gives the same normalised path.", "quantifier": "all folder stacks of any depth", "why_tests_cant": "Common prefix length and number of '..' steps range over all pairs of paths.", "anchors": ["FUtils/FUUri.cpp: MakeRelative, MakeAbsolute, ExtractPathStack"]}
{"id": "C25", "title": "XML text content round trip", "statement": "Text written through FUXmlWriter's content escaping and read through FUXmlParser::XmlToString is unchanged.", "quantifier": "all byte texts", "why_tests_cant": "The escape character itself and each of 256 byte values in each position.", "anchors": ["FUtils/FUXmlWriter.cpp: AddContent, xmlValidityTable", "FUtils/FUXmlParser.cpp: XmlToString"]}
{"id": "C26", "title": "File names written to XML are made of allowed characters and can be decoded", "statement": "The converted file name contains only allowed characters and escapes, and decoding the escapes gives back the original text.", "quantifier": "all byte texts", "why_tests_cant": "Every byte value in every position.", "anchors": ["FUtils/FUXmlWriter.cpp: ConvertFilename, filenameValidityTable"]}
{"id": "C27", "title": "Cleaned identifiers are valid XML ids", "statement": "CleanId and CleanSubId return an identifier whose first character is a letter or underscore and whose other characters are letters, digits, '_', '-' (and '.' for ids); cleaning is idempotent, keeps length (up to the maximum) and leaves valid ids alone.", "quantifier": "all texts of any length", "why_tests_cant": "Character class decisions per position over unbounded texts, and a fixed-size buffer.", "anchors": ["FCDocument/FCDObjectWithId.cpp: CleanId, CleanSubId"]}
{"id": "C28", "title": "Document-wide object ids are unique", "statement": "At any time no two live objects of a document that have been given an id hold the same id, whatever the order of creation, GetDaeId, SetDaeId, RemoveDaeId and destruction.", "quantifier": "all histories over any number of objects and any requested ids", "why_tests_cant": "Needs an invariant linking each object's id to the shared name registry over all interleavings.", "anchors": ["FCDocument/FCDObjectWithId.cpp: GetDaeId, SetDaeId, RemoveDaeId, Clone"]}
{"id": "C29", "title": "The scene graph is acyclic and parent/child lists mirror each other", "statement": "After any history of AddChildNode and RemoveChildNode, no scene node is its own ancestor, and a is in the parent list of b exactly when b is in the child list of a; AddChildNode refuses exactly NULL, itself, an existing child and an ancestor.", "quantifier": "all histories over any number of nodes", "why_tests_cant": "Cycles can be built through arbitrarily long chains and shared (instanced) nodes.", "anchors": ["FCDocument/FCDSceneNode.cpp: AddChildNode, RemoveChildNode"]}
{"id": "C30", "title": "Scene traversal visits the expected nodes in the expected order", "statement": "The scene node iterator visits each node of a hierarchy once, in pre-order, post-order or breadth-first order as requested, and stops.", "quantifier": "all finite scene trees", "why_tests_cant": "Orders over trees of unbounded size and shape.", "anchors": ["FCDocument/FCDSceneNodeIterator.hpp: FCDSceneNodeIteratorT::Initialize, Next"]}
{"id": "C31", "title": "Trackers never see a dangling object", "statement": "After any history of tracking, untracking and releasing, every object a tracked pointer or tracked list still refers to is alive, and a released object has been removed from all of them.", "quantifier": "all histories over any number of trackers and trackables", "why_tests_cant": "Dangling pointers depend on the order of destruction and re-tracking across many objects.", "anchors": ["FUtils/FUTracker.h: FUTrackable, FUTracker, FUTrackedPtr, FUTrackedList"]}
{"id": "C32", "title": "Owned objects are released exactly once", "statement": "Every object placed in an ownership container is released exactly once: when it is released directly, erased, or when the container is cleared or destroyed; releasing it directly removes it from its container.", "quantifier": "all histories over any number of objects and containers", "why_tests_cant": "Double release and leak bugs depend on the interleaving of owner and object destruction.", "anchors": ["FUtils/FUObject.h: FUObject::Release, Detach, FUObjectContainer, FUObjectOwner, FUObjectRef"]}
{"id": "C33", "title": "Event handlers: registered handlers fire, released handlers do not", "statement": "Triggering an event calls every registered handler exactly once per registration and never calls a released one.", "quantifier": "all histories of InsertHandler and ReleaseHandler", "why_tests_cant": "Histories are unbounded; duplicates and absent handlers take different paths.", "anchors": ["FUtils/FUEvent.h: FUEvent::InsertHandler, ReleaseHandler, operator()"]}
{"id": "C34", "title": "Adding keys by time keeps an animation curve sorted", "statement": "FCDAnimationCurve::AddKey(interpolation, time, index) inserted into a curve sorted by time leaves it sorted, with all former keys, and reports the index of the new key; deleting keys keeps it sorted.", "quantifier": "all curves, all times, all histories", "why_tests_cant": "Insertion position for ties and ends, over unbounded curves.", "anchors": ["FCDocument/FCDAnimationCurve.cpp: AddKey, DeleteKey"]}
{"id": "C35", "title": "Sampling a curve", "statement": "Evaluating a curve at a key's time gives that key's value; before the first and after the last key a constant-infinity curve holds the end values, linear infinity extends the end slope, cycle infinity repeats the curve; the key interval used for a time is the one containing it; linear segments interpolate between their end values.", "quantifier": "all sorted curves with any number of keys and all sample times, over exact rational arithmetic", "why_tests_cant": "The interval search (binary then linear) and infinity rules range over all curves and times.", "anchors": ["FCDocument/FCDAnimationCurve.cpp: Evaluate"]}
{"id": "C36", "title": "Triangulation", "statement": "Triangulating a polygon set turns every face of n >= 3 corners into n-2 triangles over the face's own corners (a fan from its first corner), drops smaller faces, keeps faces in order and leaves all indices inside the original set; afterwards every face has three corners and index count equals the sum of face sizes.", "quantifier": "all polygon sets that can be built, with any faces, holes and inputs; all face sizes", "why_tests_cant": "Index arithmetic over lists of arbitrary faces.", "anchors": ["FCDocument/FCDGeometryPolygonsTools.cpp: Triangulate"]}
{"id": "C37", "title": "Unique index generation", "statement": "After GenerateUniqueIndices, two corners get the same new index exactly when they had the same index in every input; the new indices are 0..n-1 numbered by first appearance; and the per-vertex data reached through the new indices equals the data reached through the old ones.", "quantifier": "all meshes: any number of polygon sets, inputs and corners", "why_tests_cant": "A hash table with collisions keyed on tuples; equality of tuples must be decided right for all data.", "anchors": ["FCDocument/FCDGeometryPolygonsTools.cpp: GenerateUniqueIndices"]}
{"id": "C38", "title": "Bounding boxes contain what was included", "statement": "Including points and boxes in a bounding box gives the smallest box containing all of them; inclusion only grows the box; overlap is symmetric and holds exactly when a common point exists; the transformed box contains the image of every point of the box.", "quantifier": "all sequences of points and boxes, over an ordered field", "why_tests_cant": "Quantifies over all real points and all inclusion orders; includes the very first point after a reset.", "anchors": ["FUtils/FUBoundingBox.cpp: Include, Contains, Overlaps, Transform, Reset, IsValid"]}
{"id": "C39", "title": "Bounding spheres contain what was included", "statement": "Including a point, sphere or box in a bounding sphere gives a sphere that contains both the former sphere and the included shape; overlap with a sphere or a box holds exactly when there are common points, and the overlap centre is one; the transformed sphere contains the image of every point of the sphere.", "quantifier": "all spheres, points and boxes, over the reals", "why_tests_cant": "Geometric containment over a continuum.", "anchors": ["FUtils/FUBoundingSphere.cpp: Include, Contains, Overlaps"]}
{"id": "C40", "title": "Matrix algebra", "statement": "4x4 matrix multiplication is associative with the identity matrix as unit, transforming a coordinate by a product of affine matrices equals transforming it twice, transposition is an involution reversing products, and the determinant is multiplicative.", "quantifier": "all matrices, over a commutative ring (exact arithmetic)", "why_tests_cant": "Sixteen hand-expanded sums; one swapped index breaks particular entries only.", "anchors": ["FMath/FMMatrix44.cpp: operator*, TransformCoordinate, TransformVector, Transposed, Determinant"]}
{"id": "C41", "title": "Matrix inversion", "statement": "Inverted() of a matrix with a determinant outside the singularity threshold multiplied with the matrix on either side is the identity, for 4x4 and 3x3 (2D) matrices.", "quantifier": "all matrices with non-negligible determinant, over a field (exact arithmetic)", "why_tests_cant": "Sixteen signed cofactors; sampling matrices does not exclude one wrong sign.", "anchors": ["FMath/FMMatrix44.cpp: Inverted", "FMath/FMMatrix33.cpp: Inverted"]}
{"id": "C42", "title": "Rotation, translation and scale matrices", "statement": "Axis rotations built from a unit axis are orthonormal with determinant 1, fix their axis, and coincide with the X/Y/Z special cases; translation and scale matrices act as such on coordinates and compose additively and multiplicatively.", "quantifier": "all unit axes and all (cos, sin) pairs on the unit circle, over a commutative ring", "why_tests_cant": "Trigonometric identities over a continuum of angles and axes.", "anchors": ["FMath/FMMatrix44.cpp: AxisRotationMatrix, XAxisRotationMatrix, YAxisRotationMatrix, ZAxisRotationMatrix, TranslationMatrix, ScaleMatrix, EulerRotationMatrix"]}
{"id": "C43", "title": "Object type tests follow the class hierarchy", "statement": "HasType/Includes holds exactly when the tested type is the object's class or one of its ancestors; it is reflexive, transitive and antisymmetric.", "quantifier": "all class hierarchies of any depth", "why_tests_cant": "Ancestor chains are of any length.", "anchors": ["FUtils/FUObjectType.h, FUObjectType.cpp: FUObjectType::Includes"]}
{"id": "C44", "title": "Enumeration names round trip", "statement": "For every COLLADA enumeration with both directions, parsing the name of a value returns the value, for each named value; no two values share a name.", "quantifier": "all values of each enumeration", "why_tests_cant": "Long if-else chains over macro strings, where an earlier branch can shadow a later one.", "anchors": ["FUtils/FUDaeEnum.cpp", "FUtils/FUDaeSyntax.h", "FUtils/FUDaeEnumSyntax.h"]}
{"id": "C45", "title": "Version numbers are ordered lexicographically", "statement": "FCDVersion's <, <=, > and >= agree with the lexicographic order on (major, minor, revision), and parsing 'a.b.c' yields (a, b, c).", "quantifier": "all triples of 32-bit numbers", "why_tests_cant": "Four comparison operators over 2^192 pairs; equality is the corner that distinguishes strict from non-strict.", "anchors": ["FCDocument/FCDVersion.h: operator>, operator>=", "FCDocument/FCDVersion.cpp: operator<, operator<=, ParseVersionNumbers"]}
{"id": "C46", "title": "File path helpers", "statement": "StripFileFromPath and the file part recombine to the path; GetFileExtension returns the lower-cased text after the last '.' of the file name, or nothing; the root path stack always keeps at least one path and pop undoes push.", "quantifier": "all path texts, all push/pop histories", "why_tests_cant": "Separator and dot positions range over all texts.", "anchors": ["FUtils/FUFileManager.cpp: StripFileFromPath, GetFileExtension, PushRootPath, PopRootPath"]}
{"id": "C47", "title": "Reducing skin influences keeps the strongest joints", "statement": "After ReduceInfluences(n, w) each vertex that was reduced has at most n influences, they are the n largest weights among those at least w, in decreasing order, rescaled so that their total equals the former total; other vertices are unchanged.", "quantifier": "all vertices with any number of influences, all n and thresholds, over exact arithmetic", "why_tests_cant": "Selection among arbitrary lists with ties; insertion and truncation bounds.", "anchors": ["FCDocument/FCDSkinController.cpp: ReduceInfluences"]}
{"id": "C48", "title": "Polygon set bookkeeping", "statement": "GetFaceVertexOffset/GetFaceVertexCount give the start and extent of a face's corners, holes included, so that consecutive faces tile the index list; adding and removing faces keeps the total count and the index list consistent.", "quantifier": "all polygon sets without holes (and with holes for the queries), all histories", "why_tests_cant": "Offsets depend on all previous faces and holes.", "anchors": ["FCDocument/FCDGeometryPolygons.cpp: GetFaceVertexOffset, GetFaceVertexCount, GetHoleCountBefore, GetHoleCount, AddFace, RemoveFace, AddHole"]}
{"id": "C49", "title": "Date-time text round trip", "statement": "Writing a date-time in the COLLADA form and parsing it back gives the same fields.", "quantifier": "all field values of the fixed widths", "why_tests_cant": "Products of field ranges; zero padding of short fields.", "anchors": ["FUtils/FUStringConversion.cpp: ToString(FUDateTime)", "FUtils/FUStringConversion.hpp: ToDateTime"]}
{"id": "C50", "title": "Object flags are independent", "statement": "Setting, resetting or assigning one flag of an object changes that flag only; distinct flags of a class hierarchy have distinct bits.", "quantifier": "all flag words, all flag masks, all histories", "why_tests_cant": "All 2^32 flag words and all pairs of masks.", "anchors": ["FUtils/FUParameterizable.h: DeclareFlag, SetFlag, TestFlag, ClearFlag"]}
{"id": "C51", "title": "Merged curves have all key times, sorted and without duplicates", "statement": "MergeCurves on time-sorted curves yields a multi-curve whose key times are sorted, contain a time equivalent to each source key time and nothing else, and whose values at matched keys are the source values.", "quantifier": "all lists of sorted curves, over exact arithmetic", "why_tests_cant": "A merge loop over arbitrary many lists with a tolerance comparison.", "anchors": ["FCDocument/FCDAnimationCurveTools.cpp: MergeCurves"]}
{"id": "C52", "title": "Error reporting levels", "statement": "FUError::Error notifies exactly the callbacks registered for the reported level and returns true exactly when the level reaches the configured fatality level.", "quantifier": "all levels, fatality settings and registration histories", "why_tests_cant": "Combination of level, fatality threshold and handler history.", "anchors": ["FUtils/FUError.cpp: FUError::Error, SetFatalityLevel, AddErrorCallback"]}
{"id": "C53", "title": "Sorted insertion of XML children", "statement": "AddChildSorted keeps the children of a node ordered by element name, stable for equal names, without losing or duplicating any child.", "quantifier": "all child lists and element names", "why_tests_cant": "Backward pointer walk over lists of any length.", "anchors": ["FUtils/FUXmlWriter.cpp: AddChildSorted"]}
{"id": "C54", "title": "Libraries keep the entities they were given", "statement": "A library's entity list is exactly the added and not yet released entities in order; FindDaeId returns an entity with that id exactly when one is present.", "quantifier": "all histories of adding and releasing entities", "why_tests_cant": "Histories of unbounded length with entity destruction from outside.", "anchors": ["FCDocument/FCDLibrary.hpp: AddEntity, FindDaeId"]}
{"id": "C55", "title": "The vector destroys every object it constructs", "statement": "For class-type elements, every object an fm::vector constructs in its buffer is destroyed exactly once over the life of the vector, including across reallocation.", "quantifier": "all histories of vector operations", "why_tests_cant": "Leaks depend on the growth history and show only under instrumentation.", "anchors": ["FMath/FMArray.h: vector::reserve, pop_back, erase, clear"]}
{"id": "C56", "title": "String comparison and concatenation", "statement": "Two fm::strings compare equal exactly when they hold the same text; operator< is a strict total order on texts (lexicographic on the characters followed by the terminator); operator+ yields the concatenation of the two texts.", "quantifier": "all pairs and triples of strings holding any text", "why_tests_cant": "Order laws (transitivity, totality) quantify over triples of unbounded strings.", "anchors": ["FUtils/FUString.h: operator==, operator!=, operator<, operator+"]}
{"id": "C57", "title": "Inserting a string into itself", "statement": "s.insert(i, s) yields the text with a copy of the original text inserted at position i.", "quantifier": "all strings and positions", "why_tests_cant": "Aliasing between source and destination depends on capacity and position.", "anchors": ["FUtils/FUString.h: insert, append"]}
{"id": "C58", "title": "Searching a string builder", "statement": "index(c) returns the position of the first occurrence of c in the built text and rindex(c) that of the last, or -1 when the text has none.", "quantifier": "all texts, reserved sizes and characters", "why_tests_cant": "Depends on stale characters behind the text and on the exact capacity.", "anchors": ["FUtils/FUStringBuilder.hpp: index, rindex"]}
{"id": "C59", "title": "A builder appends 64-bit numbers exactly", "statement": "append(uint64 i) appends the decimal numeral of i.", "quantifier": "all 2^64 values", "why_tests_cant": "The domain cannot be enumerated.", "anchors": ["FUtils/FUStringBuilder.hpp: append(uint64)"]}
{"id": "C60", "title": "Counting tokens and boolean lists", "statement": "CountValues returns the number of blank-separated tokens of a text; ToBooleanList gives one boolean per token, false exactly for tokens starting with 0, f or F.", "quantifier": "all terminated texts", "why_tests_cant": "Unbounded texts with arbitrary mixtures of blanks.", "anchors": ["FUtils/FUStringConversion.hpp: CountValues, ToBooleanList"]}
{"id": "C61", "title": "Decimal literals read as the number they denote", "statement": "ToFloat reads a decimal literal with optional sign, fraction and exponent as the number it denotes and leaves the cursor on the next token; ToFloatList reads a text of such literals as exactly their values in order.", "quantifier": "all literals, surrounding blanks and following text, over exact arithmetic", "why_tests_cant": "Infinitely many literals and cursor positions.", "anchors": ["FUtils/FUStringConversion.hpp: ToFloat, ToFloatList"]}
{"id": "C62", "title": "A float survives being written and read", "statement": "Reading the text the builder appends for a float gives the float rounded to six significant digits; infinities read back as infinities.", "quantifier": "all float values, over exact arithmetic, given the formatting library's %.6g text", "why_tests_cant": "2^32 values and the clean-up of the exponent.", "anchors": ["FUtils/FUStringBuilder.hpp: FloatToString, append(float)", "FUtils/FUStringConversion.hpp: ToFloat"]}
{"id": "C63", "title": "Vectors and matrices survive being written and read", "statement": "A vector, a 4x4 matrix or a list of vectors written component by component as text reads back as the same components rounded to six significant digits, in the same places.", "quantifier": "all component values and all list lengths, whatever the target held before", "why_tests_cant": "The domain is infinite and the old contents of the target matter.", "anchors": ["FUtils/FUStringConversion.hpp: ToVector3, ToVector4, ToMatrix, ToVector3List"]}
{"id": "C64", "title": "Interleaved lists are separated into columns", "statement": "Reading a text of tuples into n target arrays puts the i-th number of every tuple, in order, into the i-th array; NULL arrays skip their column; arrays end up with one element per tuple whatever they held before.", "quantifier": "all texts, numbers of arrays, NULL patterns and old contents", "why_tests_cant": "Unbounded texts and array shapes.", "anchors": ["FUtils/FUStringConversion.hpp: ToInterleavedFloatList, ToInterleavedUInt32List"]}
{"id": "C65", "title": "Name lists are the words of the text", "statement": "ToStringList sets the target to the blank-separated words of the text in order, whatever the target held before.", "quantifier": "all texts and all old contents of the target", "why_tests_cant": "Unbounded texts.", "anchors": ["FUtils/FUStringConversion.cpp: ToStringList, ToFStringList"]}
{"id": "C66", "title": "Animation targets are split at the qualifier", "statement": "SplitTarget returns a pointer without (, [ or . and a qualifier that is empty or starts with one of them, whose concatenation is the target; ParseQualifier returns n for (n) and [n] and -1 for a text without a leading bracket.", "quantifier": "all targets and all indices", "why_tests_cant": "Unbounded texts and indices.", "anchors": ["FUtils/FUStringConversion.cpp: SplitTarget, ParseQualifier"]}
{"id": "C67", "title": "Relative references between documents", "statement": "A reference to an element of another document, written relative to this document and resolved again, names the same document and element; and the relative path still finds its file when the common folders are moved elsewhere.", "quantifier": "all folder stacks sharing at least one folder, all element ids", "why_tests_cant": "Depends on two paths, their common depth and the fragment at once.", "anchors": ["FUtils/FUUri.cpp: GetRelativeUri, MakeAbsolute, MakeRelative"]}
{"id": "C68", "title": "Escaping a path keeps plain characters and encodes the others", "statement": "Escape leaves letters, digits, marks and reserved characters as they are and writes the other characters as %XX.", "quantifier": "all texts", "why_tests_cant": "Every character in every position.", "anchors": ["FUtils/FUUri.cpp: Escape"]}
{"id": "C69", "title": "Ids given by a document are valid and reusable", "statement": "The id an object gets from SetDaeId with a non-empty wish is a valid XML id; an id given up by a destroyed object can be obtained again by an object asking for it.", "quantifier": "all reachable documents, all wishes", "why_tests_cant": "Suffixes are appended after cleaning, and release and request can be any number of calls apart.", "anchors": ["FCDocument/FCDObjectWithId.cpp: SetDaeId, GetDaeId, ~FCDObjectWithId"]}
{"id": "C70", "title": "Error handlers and logs report what happened", "statement": "A simple error handler has failed exactly when some report reached its fatality level; an error log counts the reports of each level from its minimum level on, and a query returns the counts since the last query.", "quantifier": "all sequences of reports and levels", "why_tests_cant": "Every sequence of reports.", "anchors": ["FUtils/FUError.cpp: FUErrorSimpleHandler::OnError", "FUtils/FUErrorLog.cpp: OnErrorCallback, QueryNewMessages"]}
{"id": "C71", "title": "Releasing a scene node", "statement": "Releasing a scene node deletes the node and those of its descendants that no other node uses, each once, and no remaining node lists a deleted one.", "quantifier": "all scene graphs a program can build, any node", "why_tests_cant": "Sharing makes the order of destruction matter; the graphs are unbounded.", "anchors": ["FCDocument/FCDSceneNode.cpp: ~FCDSceneNode", "FUtils/FUTracker.h: FUTrackedList", "FUtils/FUObjectType.h: Release"]}
{"id": "C74", "title": "Translation maps", "statement": "The translation maps that GenerateUniqueIndices hands out relate an old index of a source to a new index exactly when some corner had the one and has the other, without repetition; applying the map to data laid out like the source makes every corner reach through its new index the values it reached through the old one; and applying new indices to a mesh gives every polygon set its own.", "quantifier": "all meshes, with any number of polygon sets, inputs, sources and corners", "why_tests_cant": "The maps are built by nested loops over all corners of all sets; whether a pair is missing or wrong shows only for some sharing patterns.", "anchors": ["FCDocument/FCDGeometryPolygonsTools.cpp: GenerateUniqueIndices, ApplyUniqueIndices"]}
{"id": "C75", "title": "Animation clips shift a curve in time", "statement": "Selecting an animation clip on a curve shifts the curve in time by the offset of that clip, whatever clips were registered, given offsets or selected before: the curve sampled at a time plus the offset has the value which the original curve has at that time. The same holds for a clone of the curve and the clones of its clips.", "quantifier": "all curves, all histories of registering clips, setting offsets and selecting, all sample times, over exact arithmetic", "why_tests_cant": "The shift is applied incrementally to the keys, so an error in the bookkeeping shows only after certain histories; the samples depend on keys, tangents and infinities together.", "anchors": ["FCDocument/FCDAnimationCurve.cpp: SetCurrentAnimationClip, RegisterAnimationClip, SetClipOffset, AddClip, Clone"]}
{"id": "C76", "title": "Decomposed matrices recompose", "statement": "The translation, rotation, scale and sign that Decompose finds for a matrix without shear multiply to the matrix, in the order translation * x * y * z rotation * scale, and Recompose gives the matrix back.", "quantifier": "all affine matrices with orthogonal columns of non-negligible length, over the reals", "why_tests_cant": "Nine entries must agree for every combination of three angles, three scales and a reflection, including the poles.", "anchors": ["FMath/FMMatrix44.cpp: Decompose, Recompose"]}
{"id": "C77", "title": "The look-at matrix views the target", "statement": "LookAtMatrix is a rigid transformation with the eye as its origin and the target on its negative Z axis; its X axis is orthogonal to the up direction and its Y axis lies on the side of up.", "quantifier": "all eyes, targets and up directions, over the reals", "why_tests_cant": "Orthonormality must hold for every direction, including those parallel or nearly parallel to up.", "anchors": ["FMath/FMMatrix44.cpp: LookAtMatrix"]}
{"id": "C78", "title": "Quaternions and matrices stand for the same rotations", "statement": "The matrix of a quaternion rotates as the quaternion does (q v q^-1); the product of quaternions concatenates their rotations; quaternions made from an axis and an angle, from Euler angles or from a rotation matrix give the matrices made from the same data, and a quaternion taken from its own matrix is the same up to sign; multiplying a vector by a quaternion rotates it.", "quantifier": "all non-zero (or unit) quaternions, unit axes, angles and rotation matrices, over the reals", "why_tests_cant": "Sign and order errors show for particular combinations of components only, and the choice among four formulas depends on the trace.", "anchors": ["FMath/FMQuaternion.cpp: FMQuaternion(axis, angle), operator*, SetToMatrix, ToMatrix, EulerRotationQuaternion, MatrixRotationQuaternion"]}
{"id": "C79", "title": "Spherical interpolation stays on the arc", "statement": "slerp between two unit quaternions gives a unit quaternion whose angles to both ends divide the angle between them in the ratio of the parameter, starting at the one and ending at the other.", "quantifier": "all pairs of unit quaternions and all parameters, over the reals", "why_tests_cant": "Trigonometric identities over a continuum, with singular cases at both ends of the range of angles.", "anchors": ["FMath/FMQuaternion.cpp: slerp"]}
{"id": "C80", "title": "Quaternions convert to angles", "statement": "The axis and angle of a unit quaternion, and its Euler angles, give the rotation of the quaternion back; with previous angles given, the Euler angles are the closest to them that give this rotation.", "quantifier": "all unit quaternions and all previous angles, over the reals", "why_tests_cant": "Inverse trigonometric functions have branches and poles that samples miss.", "anchors": ["FMath/FMQuaternion.cpp: ToAngleAxis, ToEuler, PatchEuler, AngleApproach"]}
{"id": "C81", "title": "Merged curves sample like their sources", "statement": "Sampling the result of MergeCurves at any time gives, in the dimension of each source curve, the value of that curve at that time, and the default value in the dimension of a missing curve.", "quantifier": "all lists of curves, default values and times, over exact arithmetic", "why_tests_cant": "It holds between the keys, for every time, and depends on how the keys of all the curves interleave.", "anchors": ["FCDocument/FCDAnimationCurveTools.cpp: MergeCurves", "FCDocument/FCDAnimationMultiCurve.cpp: Evaluate"]}
{"id": "C82", "title": "Sub ids of scene nodes are valid and unique along the hierarchy", "statement": "After FCDSceneNode::SetSubId with a non-empty text the node has a valid sub id that no ancestor and no descendant of the node has; the call always ends and changes no other node.", "quantifier": "all scene graphs a program can build, all sub ids of the other nodes, all texts", "why_tests_cant": "The graph above and below the node has no bounded size, and the texts that collide are arbitrary.", "anchors": ["FCDocument/FCDSceneNode.cpp: SetSubId, FindSubId", "FCDocument/FCDObjectWithId.h: CleanSubId"]}
{"id": "C73", "title": "Packed vertex buffers hold the vertices that the packed indices mean", "statement": "GenerateVertexPackingMap consumes the first indices until the maximum number of indices or vertices is reached, numbers the different ones in the order of their first appearance, and returns those numbers as packed indices; after PackVertexBuffer, each consumed corner reaches through its packed index the values it reached through its own index, and nothing outside the packed vertices is written. FindLargestUniqueIndex returns the largest new index of a translation map. Colours are packed as bytes 0 to 255.", "quantifier": "all index lists, limits, translation maps, sources and destination buffers; all meshes whose unique indices were generated", "why_tests_cant": "The indices repeat in any pattern, the limits cut the list anywhere, and the map from sources to packed vertices is composed of three tables.", "anchors": ["FCDocument/FCDGeometryPolygonsTools.cpp: GenerateVertexPackingMap, PackVertexBuffers, PackVertexBufferV3, PackVertexBufferV2, PackVertexBufferColor, FindLargestUniqueIndex"]}
{"id": "C72", "title": "Splitting the polygon sets of a mesh to a maximum size keeps its polygons", "statement": "After FitIndexBuffers no polygon set has more indices than the maximum; the faces of each original set, with their indices into each source, are those of what is left of it followed by those of the sets split off it, which have its material, primitive type and sources; sets that fit are not changed; the call ends.", "quantifier": "all meshes, all maximal index counts", "why_tests_cant": "The split points depend on all face sizes, and index lists are shared between inputs by offset.", "anchors": ["FCDocument/FCDGeometryPolygonsTools.cpp: FitIndexBuffers", "FCDocument/FCDGeometryMesh.cpp: AddPolygons", "FCDocument/FCDGeometryPolygonsInput.cpp: SetIndices, SetIndexCount, FindIndices"]}
{"id": "C83", "title": "Removing a data source or an input, or making a source per-vertex, keeps the indices of the other inputs", "statement": "Inputs of polygon sets are never left with a source that has been released. After the release of a source its inputs have no source, and all inputs have the indices they had. After the release of an input, or after AddVertexSource for a source, the other inputs have the indices and offsets they had; the new per-vertex source is at offset 0 and shares the indices of that offset.", "quantifier": "all histories of creating, releasing and setting sources and inputs and of setting indices; all meshes built with the API", "why_tests_cant": "Index lists are stored in one of the inputs of an offset and shared by the others, and which input has the list depends on the history.", "anchors": ["FCDocument/FCDGeometryPolygonsInput.cpp: OnObjectReleased, SetSource, FindIndices, ~FCDGeometryPolygonsInput", "FCDocument/FCDGeometryMesh.cpp: AddVertexSource", "FUtils/FUTracker.cpp: Detach, AddTracker, RemoveTracker"]}
{"id": "C84", "title": "The clone of a mesh has the same data and polygons", "statement": "FCDGeometryMesh::Clone makes a mesh with the same data sources and per-vertex sources, and for each polygon set one with the same material, primitive type, faces, holes, offsets and indices into each source.", "quantifier": "all meshes", "why_tests_cant": "Inputs are found by source and index lists by offset, so that the result depends on how inputs share lists in the original and in the clone.", "anchors": ["FCDocument/FCDGeometryMesh.cpp: Clone, AddPolygons", "FCDocument/FCDGeometryPolygons.cpp: Clone, FindInput, AddInput"]}
{"id": "C85", "title": "Local and world transforms of scene nodes apply the transforms in order", "statement": "The matrix of a scene node applies its list of transforms one after the other, the last one first. AddTransform puts a new transform at the given place, keeps the others in order, and the new transform changes nothing until it gets a value. CalculateWorldTransform always ends and applies the transforms of the node, then those of its first parent, up to a node without parents.", "quantifier": "all lists of transforms of all six types, all scene graphs that can be built, all nodes", "why_tests_cant": "The number, order and values of transforms and the depth of the graph are unbounded, and nodes may have several parents.", "anchors": ["FCDocument/FCDSceneNode.cpp: ToMatrix, CalculateWorldTransform, AddTransform", "FCDocument/FCDTransform.cpp: ToMatrix, CreateTransform"]}
{"id": "C86", "title": "Transforms called inverse undo each other", "statement": "FCDTransform::IsInverse holds for two transforms exactly if one after the other moves nothing, and it is symmetric.", "quantifier": "all pairs of transforms of all types", "why_tests_cant": "Values are continuous; the tolerance and degenerate axes only show for particular values.", "anchors": ["FCDocument/FCDTransform.cpp: IsInverse", "FCDocument/FCDTransform.h: IsInverse"]}
{"id": "C87", "title": "A skew turns the rotated axis by the angle and keeps volumes", "statement": "The matrix of a skew with two orthogonal unit axes turns the axis which is rotated by the given angle, keeps all points of the plane orthogonal to it, keeps volumes, and is undone by the opposite angle; skews with the same axes add their tangents.", "quantifier": "all axes and angles other than right angles", "why_tests_cant": "The values are continuous.", "anchors": ["FCDocument/FCDTransform.cpp: FCDTSkew::ToMatrix", "FMath/FMSkew.h: rotateAxis, aroundAxis", "FMath/FMMatrix44.cpp: Set"]}
{"id": "C88", "title": "The clone of a scene node has the same hierarchy and transforms", "statement": "FCDSceneNode::Clone ends; with the children, it makes a hierarchy that has a node at each place where the original has one, with the same joint flag, visibility and transforms including their sub ids, and shares the nodes the original shares; without the children, it makes one node.", "quantifier": "all scene graphs that can be built, all nodes and transforms", "why_tests_cant": "Graphs are unbounded and may share nodes.", "anchors": ["FCDocument/FCDSceneNode.cpp: Clone", "FCDocument/FCDTransform.cpp: Clone"]}
{"id": "C89", "title": "Animation helpers of list parameters follow their values", "statement": "The animation helper that an animatable list parameter hands out for a value stays with that value: after any insertions, removals and resizes it has the index of its value and points at it, it is released exactly when its value is removed, and asking for the helper of a value gives that helper again, or a new one that no other value has.", "quantifier": "all histories of insertions (single, repeated, arrays), removals (single, ranges), pushes, pops, clear, resizes, settings and requests for helpers, in all orders", "why_tests_cant": "Which helpers must move depends on the whole history and on the capacity of the buffer.", "anchors": ["FCDocument/FCDParameterAnimatable.cpp: GetAnimated, OnInsertion, OnRemoval, BinarySearch", "FCDocument/FCDParameterAnimatable.hpp: insert, erase, clear, push_back, push_front, pop_back, pop_front, resize, OnPotentialSizeChange"]}
{"id": "C90", "title": "Animated values name their components and keep one list of curves for each", "statement": "For each type of animatable parameter, the qualifiers of COLLADA find the component they name; FindQualifier finds exactly listed qualifiers and indices in brackets that are in range. AddCurve and RemoveCurve change the curves of the value they name and no others, and a new curve replaces the one assigned before. Clones and custom animated values take over qualifiers and curves.", "quantifier": "all types of parameters, all qualifiers, all histories of calls, all curves", "why_tests_cant": "Qualifiers are arbitrary texts and the sequences of calls are unbounded.", "anchors": ["FCDocument/FCDAnimated.cpp: FindQualifier, AddCurve, RemoveCurve, HasCurve, Clone, FCDAnimatedCustom", "FCDocument/FCDParameterAnimatable.cpp: CreateAnimated"]}
{"id": "C91", "title": "Setting the time of a document moves exactly the animated values", "statement": "FCDocument::SetCurrentTime ends and gives each float of an animated value with a curve, in the document and all loaded documents it refers to, the value of its curve at that time; no other float changes and the order of the animated values does not matter. CreateMultiCurve makes a curve that has the same values.", "quantifier": "all documents with any references, all animated values, curves and times", "why_tests_cant": "Documents, references and animated values are unbounded, and several documents may refer to the same one.", "anchors": ["FCDocument/FCDocument.cpp: SetCurrentTime", "FCDocument/FCDAnimated.cpp: Evaluate, CreateMultiCurve"]}
{"id": "C92", "title": "Names in extra trees are valid and unique, and objects are found by them", "statement": "In an extra tree, whatever calls were made, the types have different names, the techniques of a type different profiles, the attributes of a node different names, and all names of nodes and attributes are valid XML names. Adding a type, technique or attribute that exists returns it; what was added under a name is found under it; searches return the first match.", "quantifier": "all histories of calls on an extra tree, all texts as names, trees of any depth", "why_tests_cant": "Trees, names and sequences of calls are unbounded.", "anchors": ["FCDocument/FCDExtra.cpp: CleanName, AddType, FindType, AddTechnique, FindTechnique, FindRootNode, AddAttribute, FindAttribute, ReadAttribute, AddChildNode, FindChildNode"]}
{"id": "C93", "title": "Nodes of extra trees never have mixed content", "statement": "A node of an extra tree has either content or child nodes: SetContent removes the child nodes, and no call makes a node with both. A parameter is a child node without children; AddParameter adds one, FindParameter and FindParameters find exactly these.", "quantifier": "all histories of calls on an extra tree", "why_tests_cant": "Trees and sequences of calls are unbounded.", "anchors": ["FCDocument/FCDExtra.cpp: SetContent, AddChildNode, AddParameter, FindParameter, FindParameters, HasContent"]}
{"id": "C94", "title": "Clones of extra trees are equal to their originals", "statement": "Cloning an extra tree into a new object gives an equal tree; cloning it into an existing tree merges types by name and techniques by profile and keeps what the original does not have.", "quantifier": "all extra trees reached by any history of calls", "why_tests_cant": "Trees are unbounded in depth and width.", "anchors": ["FCDocument/FCDExtra.cpp: FCDExtra::Clone, FCDEType::Clone, FCDETechnique::Clone, FCDENode::Clone"]}
{"id": "C95", "title": "A reference answers the entity it was set to", "statement": "After SetEntity(e) a reference answers e, its id, and whether e is in another document; after SetUri it answers the entity with that id in that document, loading the document if need be, or NULL when there is none; after SetEntity(NULL) it answers NULL.", "quantifier": "all histories of calls on references, entities and documents, all URIs, all files", "why_tests_cant": "Histories and numbers of documents, entities and references are unbounded.", "anchors": ["FCDocument/FCDEntityReference.cpp: SetEntity, SetUri, GetEntity, LoadEntity, SetPlaceHolder", "FCDocument/FCDPlaceHolder.cpp: GetTarget, LoadTarget"]}
{"id": "C96", "title": "Placeholders and loaded documents live as long as references need them", "statement": "A placeholder lists exactly the references that go through it and goes with the last one; a document that was not opened as a top document is released exactly when its last placeholder goes; there is one placeholder per document.", "quantifier": "all histories of calls on references, entities and documents", "why_tests_cant": "Which reference is the last one depends on the whole history.", "anchors": ["FCDocument/FCDPlaceHolder.cpp: ~FCDPlaceHolder", "FCDocument/FCDEntityReference.cpp: SetPlaceHolder, SetEntityDocument", "FCDocument/FCDExternalReferenceManager.cpp: FindPlaceHolder, AddPlaceHolder", "FCollada.cpp: NewTopDocument"]}
{"id": "C97", "title": "References never dangle when entities and documents are released", "statement": "Releasing an entity, a document, a placeholder or a reference, in any order, leaves no reference to a destroyed object; exactly the references to what was released lose it, and external ones find the entity again when its document is loaded again.", "quantifier": "all histories of calls, releases included", "why_tests_cant": "Release orders are unbounded.", "anchors": ["FCDocument/FCDEntityReference.cpp: OnObjectReleased, ~FCDEntityReference", "FCDocument/FCDPlaceHolder.cpp: OnObjectReleased, UnloadTarget", "FUtils/FUTracker.cpp: FUTrackable::Detach"]}
{"id": "C98", "title": "Volumes of analytical physics shapes are the volumes of the solids", "statement": "The volume computed for a box, sphere, elliptic cylinder, capsule, tapered cylinder or tapered capsule is the Lebesgue measure of the solid with these sizes.", "quantifier": "all sizes that are not negative", "why_tests_cant": "The sizes are real numbers, and the claim is an equality with an integral.", "anchors": ["FCDocument/FCDPhysicsAnalyticalGeometry.cpp: CalculateVolume", "FMath/FMVolume.cpp: CalculateBoxVolume, CalculateEllipsoidVolume, CalculateSphereVolume, CalculateEllipsoidEndVolume, CalculateCylinderVolume, CalculateCapsuleVolume, CalculateConeVolume, CalculateTaperedCylinderVolume"]}
{"id": "C99", "title": "The volume of a mesh shape is that of its bounding boxes", "statement": "The volume computed for a shape that is a mesh is that of the smallest box around the positions of the mesh; for the convex hull of a mesh, around those of that mesh.", "quantifier": "all meshes, all chains of convex hulls", "why_tests_cant": "Meshes, their sets of polygons and the chains of convex hulls are unbounded.", "anchors": ["FCDocument/FCDPhysicsShape.cpp: CalculateVolume", "FCDocument/FCDGeometryMesh.cpp: FindConvexHullOfMesh"]}
{"id": "C100", "title": "Clones of physics shapes keep everything; a shape is of one kind", "statement": "The clone of a physics shape has the same geometry, sizes, material, mass, density and placement; a shape is either an analytical geometry or a geometry instance, as the last Create call says.", "quantifier": "all shapes, all sequences of calls", "why_tests_cant": "Shapes have many optional parts in all combinations; sequences of calls are unbounded.", "anchors": ["FCDocument/FCDPhysicsShape.cpp: Clone, CreateGeometryInstance, CreateAnalyticalGeometry", "FCDocument/FCDPhysicsAnalyticalGeometry.cpp: Clone, CreatePAS", "FCDocument/FCDPhysicsMaterial.cpp: Clone"]}
{"id": "C101", "title": "Physics materials have one owner, which releases them once", "statement": "A material made by a shape or by rigid body parameters is released exactly when it is replaced or its owner goes; materials of the document are never released by those that use them; nothing refers to a released material.", "quantifier": "all histories of calls on shapes, bodies and materials", "why_tests_cant": "Histories are unbounded, and who is the owner depends on all of it.", "anchors": ["FCDocument/FCDPhysicsShape.cpp: AddOwnPhysicsMaterial, SetPhysicsMaterial, ~FCDPhysicsShape", "FCDocument/FCDPhysicsRigidBodyParameters.cpp: AddOwnPhysicsMaterial, SetPhysicsMaterial, ~FCDPhysicsRigidBodyParameters"]}
{"id": "C102", "title": "Clones of rigid bodies, constraints, physics models and scenes keep everything", "statement": "The clones have the parameters of the originals; constraints in the clone of a model join the bodies of the clone; the shape mass factor makes the masses of the shapes add up to that of the body.", "quantifier": "all bodies, constraints, models and scenes", "why_tests_cant": "Numbers of shapes, bodies, constraints and instances are unbounded.", "anchors": ["FCDocument/FCDPhysicsRigidBodyParameters.cpp: CopyFrom", "FCDocument/FCDPhysicsRigidBody.cpp: Clone, GetShapeMassFactor", "FCDocument/FCDPhysicsRigidConstraint.cpp: Clone", "FCDocument/FCDPhysicsModel.cpp: Clone", "FCDocument/FCDPhysicsModelInstance.cpp: Clone", "FCDocument/FCDPhysicsScene.cpp: Clone", "FCDocument/FCDPhysicsRigidBodyInstance.cpp: SetRigidBody"]}
{"id": "C103", "title": "Colours convert to bytes and back without loss", "statement": "A number between 0 and 1 becomes the byte 255 times it, rounded down; a byte converted to a number and back is the same byte, also in single precision; missing components are 0, and alpha 255; the bytes of a 32-bit number are the components; scaling and averaging stay in range.", "quantifier": "all colours, all numbers between 0 and 1, all 32-bit numbers", "why_tests_cant": "Numbers are real; there are 2^32 colours.", "anchors": ["FMath/FMColor.cpp: FMColor, ToFloats", "FMath/FMColor.h: FMColor, ComponentAverage, operator*", "FMath/FMVector3.cpp: FMVector4"]}
{"id": "C104", "title": "Hue, saturation and value mean the colour", "statement": "Converting hue, saturation and value to a colour gives the pure colour of the hue mixed with white and darkened; converting a colour gives values in range that mean it; both conversions are inverse to each other.", "quantifier": "all colours with components between 0 and 1, all hues, saturations and values between 0 and 1", "why_tests_cant": "The claim is an equality of functions of real numbers with many cases.", "anchors": ["FMath/FMVector3.cpp: FMVector4::FromHSVColor, FMVector4::ToHSVColor"]}
{"id": "C105", "title": "Clamped, wrapped and random numbers lie in their range", "statement": "Clamp gives the nearest value of the range; Wrap gives a value in the range that differs by a whole number of lengths of the range, for floats, integers and unsigned integers alike; random numbers lie in the documented ranges.", "quantifier": "all values, all ranges that are not empty, all results of the platform's generator", "why_tests_cant": "Values and ranges are unbounded, integers wrap around only near their ends.", "anchors": ["FMath/FMath.h: Clamp, Wrap", "FMath/FMRandom.cpp: GetUInt32, GetInt32, GetFloat"]}
{"id": "C106", "title": "Normalising, projecting, clamping and comparing vectors", "statement": "Normalising gives the vector of length 1 in the same direction; projecting gives the foot of the perpendicular; the component-wise functions give minimum, maximum and clamped components; comparison of angles with axes is an equivalence up to the tolerance that does not tell apart two ways to write a rotation.", "quantifier": "all vectors and angles", "why_tests_cant": "Vectors have real components.", "anchors": ["FMath/FMVector3.h: NormalizeIt, Normalize, Projected, ComponentMinimum, ComponentMaximum, ComponentClamp, ComponentAverage", "FMath/FMVector4.h: ComponentMinimum, ComponentMaximum", "FMath/FMAngleAxis.cpp: operator=="]}
{"id": "C107", "title": "Chains of controllers end with their geometry", "statement": "Whatever skins and morphers are put on geometries and on one another, and whatever is released, asking a controller for its base geometry, for the controller on that geometry or for its skin ends, and gives the geometry at the end of the chain, the last controller and the first skin; giving a skin a target sets its number of influences to that of the vertices.", "quantifier": "all histories of calls on geometries and controllers, all lengths of chains", "why_tests_cant": "Chains are of any length, and a cycle shows only as a program that hangs.", "anchors": ["FCDocument/FCDController.cpp: GetBaseTarget, GetBaseGeometry, GetBaseGeometryController, CreateSkinController, CreateMorphController", "FCDocument/FCDSkinController.cpp: SetTarget", "FCDocument/FCDControllerInstance.cpp: FindSkin"]}
{"id": "C108", "title": "Morph targets fit the base of the morpher", "statement": "A morph target is added exactly if there is no base target or its geometry is of the same kind with as many vertices; setting a base target keeps exactly those that fit, in order; an unsuitable base leaves none; setting the geometry of a morph target stores it if it fits.", "quantifier": "all histories of calls on geometries and controllers, all lists of morph targets", "why_tests_cant": "Whether a geometry fits depends on a chain of controllers of any length; geometries may be released at any time.", "anchors": ["FCDocument/FCDMorphController.cpp: SetBaseTarget, AddTarget, IsSimilar, SetGeometry"]}
{"id": "C109", "title": "Asking for ancestors and for scene nodes by identifier", "statement": "Asking an instance whether a scene node is its parent or above it ends and is answered correctly; asking the document for a scene node by identifier ends, and gives a node of the visual scenes with this identifier whenever there is one.", "quantifier": "all scene graphs a program can build, with nodes that have many parents; all identifiers", "why_tests_cant": "Scene graphs are of any size and depth, and a node can be reached on many ways.", "anchors": ["FCDocument/FCDEntityInstance.cpp: HasForParent", "FCDocument/FCDSceneNode.cpp: FindDaeId", "FCDocument/FCDocument.cpp: FindSceneNode", "FCDocument/FCDLibrary.hpp: FindDaeId"]}
{"id": "C110", "title": "Skeleton roots", "statement": "The root identifiers calculated for a controller instance are those of the joints that have no joint for a parent; every joint is below one of them; looking up the roots gives these joints again, in order.", "quantifier": "all scene graphs, all lists of joints, all identifiers", "why_tests_cant": "Scene graphs and skeletons are of any size; identifiers pass through URIs.", "anchors": ["FCDocument/FCDControllerInstance.cpp: CalculateRootIds, AddJoint, FindJointIndex, FindSkeletonNodes"]}
{"id": "C111", "title": "Materials bound to polygons", "statement": "Binding a material to a set of polygons gives both the same non-empty symbol and changes nothing else; afterwards the material instance is found by the symbol of the polygons and the polygons are the target of the material instance. Binding one material to each set of polygons of a mesh leaves every set with its own material. Bindings of effect parameters are found by their symbols.", "quantifier": "all lists of material instances, all meshes, all identifiers of materials and all face offsets", "why_tests_cant": "Generated symbols are made of identifiers and numbers: whether two of them meet depends on all pairs of identifiers and offsets.", "anchors": ["FCDocument/FCDGeometryInstance.cpp: FindMaterialInstance, AddMaterialInstance", "FCDocument/FCDMaterialInstance.cpp: GetGeometryTarget, FindBinding, FindVertexInputBinding, AddBinding, AddVertexInputBinding, RemoveBinding"]}
{"id": "C112", "title": "Clones of instances", "statement": "The clone of an instance has the entity, the effect parameters, the material instances, the skeleton roots and the joints of the instance, and finds the same materials; cloning into an existing instance leaves the rest of it alone.", "quantifier": "all instances, with any number of parameters, materials, bindings and joints; all targets", "why_tests_cant": "Instances are of any size, and each of the four classes may be cloned into each other one.", "anchors": ["FCDocument/FCDEntityInstance.cpp: Clone", "FCDocument/FCDGeometryInstance.cpp: Clone", "FCDocument/FCDControllerInstance.cpp: Clone", "FCDocument/FCDMaterialInstance.cpp: Clone"]}
{"id": "C113", "title": "Effect parameters are found where they are", "statement": "Looking for a parameter by semantic or by reference in a geometry instance, a material instance, a material, an effect, a profile or a technique gives the first one with that key among the parameters the object shows, its own before those of the objects it refers to; looking for all of them adds exactly those, in the same order; both searches agree; an empty key finds nothing.", "quantifier": "every geometry instance, material instance, material, effect, profile and technique, every key and both settings of the search for local parameters only", "why_tests_cant": "the searches nest up to five levels with a flag at each; tests use one parameter", "anchors": ["FCollada/FCDocument/FCDEffectTools.cpp:FindEffectParameterBySemantic", "FCollada/FCDocument/FCDEffectTools.cpp:FindEffectParameterByReference", "FCollada/FCDocument/FCDEffectTools.cpp:FindEffectParametersBySemantic", "FCollada/FCDocument/FCDEffectTools.cpp:FindEffectParametersByReference"]}
{"id": "C114", "title": "The colour or number in force is that of the nearest place", "statement": "For each of the twelve named parameters of a standard effect, the value in force is that of the geometry instance's parameter with that name, else that of the parameter referred to in the material, the effect or the profile, else the effect's own; a parameter of the wrong type gives no value; whether a colour is without alpha is reported; the default value is the value in force without a geometry instance, and a material without a standard effect has none.", "quantifier": "every geometry instance, material, effect and name", "why_tests_cant": "which of five places wins depends on what the others hold and on the types; tests try one combination", "anchors": ["FCollada/FCDocument/FCDEffectTools.cpp:GetAnimatedColor", "FCollada/FCDocument/FCDEffectTools.cpp:GetAnimatedFloat", "FCollada/FCDocument/FCDEffectTools.cpp:GetDefaultColor", "FCollada/FCDocument/FCDEffectTools.cpp:GetDefaultFloat", "FCollada/FCDocument/FCDEffectStandard.cpp:GetParam"]}
{"id": "C115", "title": "Synchronizing gives the geometry instance the material's values", "statement": "Synchronizing gives each animated parameter of the geometry instance the value of the parameter the standard effect refers to under that name, brought to its own type; it changes nothing else, doing it twice is doing it once, and afterwards the value in force on the geometry instance is the material's default.", "quantifier": "every list of parameters of a geometry instance and every material", "why_tests_cant": "twelve parameters, three places and two types of colours combine freely", "anchors": ["FCollada/FCDocument/FCDEffectTools.cpp:SynchronizeAnimatedParams", "FCollada/FCDocument/FCDEffectTools.cpp:LinkAnimatedParamCommonFloat", "FCollada/FCDocument/FCDEffectTools.cpp:LinkAnimatedParamCommonVector"]}
{"id": "C116", "title": "Opacity and reflectivity follow the whole colour", "statement": "The opacity of a standard effect is alpha times the factor or, with transparency kept in the colour, one less the mean of the colour's channels times the factor; its reflectivity is the mean of the channels of the reflective colour times the factor.", "quantifier": "every colour and factor and both transparency modes", "why_tests_cant": "the wrong and the right mean agree on every grey colour", "anchors": ["FCollada/FCDocument/FCDEffectStandard.cpp:GetOpacity", "FCollada/FCDocument/FCDEffectStandard.cpp:GetReflectivity"]}
{"id": "C117", "title": "A texture shows the image it was given", "statement": "After a texture is given an image it shows that image, or none if none was given; every other texture of the effect shows what it showed; a new texture shows none; asking for the sampler changes no image; when an image is released exactly the textures that show it show none.", "quantifier": "every sequence of adding textures, asking for samplers, giving images and releasing images, and every image", "why_tests_cant": "surfaces and samplers are shared through ids that are found again or not depending on all earlier calls", "anchors": ["FCollada/FCDocument/FCDTexture.cpp:SetImage", "FCollada/FCDocument/FCDTexture.cpp:GetImage", "FCollada/FCDocument/FCDTexture.cpp:GetSampler", "FCollada/FCDocument/FCDEffectStandard.cpp:AddTexture"]}
{"id": "C118", "title": "A surface holds each image once and its cube map keeps its faces", "statement": "An image is found in a surface exactly if it is there; adding one puts it at the index asked for, or at the end, unless it is there, and gives back its index; removing one takes only it away; each face of a cube map that showed another image shows it still; no image is there twice.", "quantifier": "every surface, image and index and every sequence of additions, removals and releases", "why_tests_cant": "the faces are indices that shift with every removal", "anchors": ["FCollada/FCDocument/FCDEffectParameterSurface.cpp:FindImage", "FCollada/FCDocument/FCDEffectParameterSurface.cpp:AddImage", "FCollada/FCDocument/FCDEffectParameterSurface.cpp:RemoveImage"]}
{"id": "C119", "title": "Render states hold their documented default values", "statement": "A new render state, and one set back to its default whatever was written into it, holds the documented structure: as many bytes as documented, all of them written, each field with its documented default. The clone of a state has its data; a clone into a state of another size is refused.", "quantifier": "every render state, every content of its data and every clone", "why_tests_cant": "each state is its own row of two tables and its own sequence of raw writes into a byte array; bytes that are not written look like any value in a test", "anchors": ["FCollada/FCDocument/FCDEffectPassState.cpp:SetDefaultValue", "FCollada/FCDocument/FCDEffectPassState.cpp:dataSizeTable", "FCollada/FCDocument/FCDEffectPassState.cpp:Clone", "FCollada/FUtils/FUDaeEnum.h:FUDaePassState::State"]}
{"id": "C120", "title": "A pass keeps its render states in order and one shader of a kind", "statement": "Adding a vertex (fragment) shader leaves it as the only one of its kind and touches nothing else; the render states are those added and not released, in the order of their types and among equal types in the order of adding; looking for a type finds the first added; a binding is found by its reference and symbol; the clone of a pass has its name, shaders, codes and states.", "quantifier": "every sequence of adding, editing and releasing shaders and states, and every technique cloned into", "why_tests_cant": "the order depends on the whole history of additions and releases, and the code of a cloned shader on all codes of the technique and profile", "anchors": ["FCollada/FCDocument/FCDEffectPass.cpp:AddVertexShader", "FCollada/FCDocument/FCDEffectPass.cpp:AddRenderState", "FCollada/FCDocument/FCDEffectPass.cpp:FindRenderState", "FCollada/FCDocument/FCDEffectPass.cpp:Clone", "FCollada/FCDocument/FCDEffectPassShader.cpp:Clone"]}
{"id": "C121", "title": "The change of the up-axis is a rotation that takes the current axis to the wanted one", "statement": "Standardizing a document to an up-axis and a unit turns all coordinates by one rotation, which takes the current up-axis to the wanted one and is undone by the way back; lengths keep their number of meters; values that are not given are those of the document, or Y and one meter.", "quantifier": "every pair of axes, every unit and every vector", "why_tests_cant": "six hand-written permutations with signs; a test with one pair of axes does not see another pair go wrong", "anchors": ["FCollada/FCDocument/FCDocumentTools.cpp:FCDConversionSwapFunctor", "FCollada/FCDocument/FCDocumentTools.cpp:FCDConversionUnitFunctor", "FCollada/FCDocument/FCDocumentTools.cpp:StandardizeUpAxisAndLength"]}
{"id": "C122", "title": "Converted transforms do in the new coordinates what they did in the old ones", "statement": "For a translation, rotation, scale, skew, look-at or matrix, and for a whole list of them: moving a point and then changing the coordinates is the same as changing the coordinates and then moving the point with the converted transform.", "quantifier": "every transform, every list of transforms, every pair of axes and factor, every point", "why_tests_cant": "equality of two maps on all of space, for every combination of transform types", "anchors": ["FCollada/FCDocument/FCDocumentTools.cpp:StandardizeUpAxisAndLength", "FCollada/FCDocument/FCDocumentTools.cpp:CONVERT_MAT44"]}
{"id": "C123", "title": "Standardizing changes every part of a document exactly once and labels it", "statement": "The call ends for every scene graph; every node of the visual scenes is changed once, so that world transforms, vertices, normals, bind-poses and clip planes all agree on the same change; the asset of the document gets the wanted values; a second equal call changes nothing; assets nearer to an entity have precedence.", "quantifier": "every scene graph a program can build, every document and every wanted axis and unit", "why_tests_cant": "the places to change are spread over five libraries, and each looks up its current values in a hierarchy of assets that the call itself empties while it runs", "anchors": ["FCollada/FCDocument/FCDocumentTools.cpp:StandardizeUpAxisAndLength", "FCollada/FCDocument/FCDocumentTools.cpp:GetAssetFunctors", "FCollada/FCDocument/FCDocumentTools.cpp:ResetAsset", "FCollada/FCDocument/FCDocumentTools.cpp:VisualSceneNodeIterator"]}
{"id": "C124", "title": "A standardized skin deforms to the same shape", "statement": "A vertex of a converted skin, with the converted joints in any pose, is where the vertex of the skin was, in the new coordinates.", "quantifier": "every skin, every number of joints, all weights, poses and vertices", "why_tests_cant": "a weighted sum of products of three matrices, two of which are converted by different ways", "anchors": ["FCollada/FCDocument/FCDocumentTools.cpp:StandardizeUpAxisAndLength"]}
{"id": "C125", "title": "Cameras and lights keep looking at the same things", "statement": "After the change, what a camera, a light, an emitter or a force field meets in its own directions is where it was, in the new coordinates; a targeted one keeps its line of sight; the way back removes the added rotations.", "quantifier": "every list of transforms, every pair of axes", "why_tests_cant": "the added rotations depend on the last transform of the node, which may be one added by an earlier call", "anchors": ["FCollada/FCDocument/FCDocumentTools.cpp:SetPivotTransform", "FCollada/FCDocument/FCDocumentTools.cpp:SmartAddRotationPivot", "FCollada/FCDocument/FCDocumentTools.cpp:GetLastTransformForPivot"]}
{"id": "C126", "title": "Converting a curve converts what it evaluates to", "statement": "When the values and tangents of a curve are converted by y to c y + d, the curve has at each time the converted value; when its times are converted by x to a x + b with positive a, it has at each converted time the value it had.", "quantifier": "every list of keys of every interpolation, every infinity, every time, every factor and offset", "why_tests_cant": "the evaluation has an iteration with a fixed tolerance and clamps that a few sampled curves do not hit", "anchors": ["FCollada/FCDocument/FCDAnimationCurve.cpp:ConvertValues", "FCollada/FCDocument/FCDAnimationCurve.cpp:ConvertInputs"]}
{"id": "C127", "title": "Animated values follow the change of the up-axis and of the unit", "statement": "When a document is standardized, every animated translation, direction, scale, length, matrix and vertex has at every time the converted value of what it had at that time.", "quantifier": "every set of curves, every pair of axes and factor, every time, every stride and number of vertices", "why_tests_cant": "curves move between the components while they are negated and scaled, for a matrix nine times; a test compares one pair of axes at a few times", "anchors": ["FCollada/FCDocument/FCDocumentTools.cpp:ConvertAnimationVector3", "FCollada/FCDocument/FCDocumentTools.cpp:ConvertAnimationFloat", "FCollada/FCDocument/FCDocumentTools.cpp:CONVERT_MAT44", "FCollada/FCDocument/FCDocumentTools.cpp:StandardizeUpAxisAndLength"]}
{"id": "C128", "title": "The copy of an effect parameter is like the original", "statement": "Cloning an effect parameter of any class gives a parameter with the same usage, reference, semantic, annotations and value, curves included; cloning into a parameter of another class takes only what all parameters have.", "quantifier": "every parameter of every class with any fields", "why_tests_cant": "a test copies a parameter or two with default fields; which fields are forgotten shows only when each has a value of its own", "anchors": ["FCollada/FCDocument/FCDEffectParameter.cpp:Clone", "FCollada/FCDocument/FCDEffectParameter.hpp:Clone", "FCollada/FCDocument/FCDEffectParameterSurface.cpp:Clone", "FCollada/FCDocument/FCDEffectParameterSampler.cpp:Clone"]}
{"id": "C129", "title": "Comparing and overwriting effect parameters", "statement": "Two effect parameters compare equal exactly when they have the same type and value; the comparison is reflexive and symmetric, a copy compares equal, and after overwriting a parameter with another of its type the two compare equal while the rest is kept.", "quantifier": "every pair of parameters of every class", "why_tests_cant": "pairs of classes, precisions and types of samplers are many, and equal looking surfaces need not be one object", "anchors": ["FCollada/FCDocument/FCDEffectParameter.cpp:IsValueEqual", "FCollada/FCDocument/FCDEffectParameter.hpp:IsValueEqual", "FCollada/FCDocument/FCDEffectParameter.hpp:Overwrite", "FCollada/FCDocument/FCDEffectParameterSurface.cpp:IsValueEqual", "FCollada/FCDocument/FCDEffectParameterSampler.cpp:IsValueEqual"]}
{"id": "C130", "title": "Copies of FX profiles, and finding profiles", "statement": "Cloning an effect clones each FX profile with its type, platform, parameters, codes, techniques and passes in their order, and the shaders of the clone use the codes of the clone in the places of those of the original; searching a profile by type, or by type and platform, finds the first that has them.", "quantifier": "every profile with any number of codes, techniques, passes and shaders, every list of profiles", "why_tests_cant": "codes are found again by sub id in two lists that grow while the clone is made", "anchors": ["FCollada/FCDocument/FCDEffectProfileFX.cpp:Clone", "FCollada/FCDocument/FCDEffectTechnique.cpp:Clone", "FCollada/FCDocument/FCDEffectCode.cpp:Clone", "FCollada/FCDocument/FCDEffect.cpp:FindProfileByTypeAndPlatform", "FCollada/FCDocument/FCDEffect.cpp:Clone"]}
{"id": "C131", "title": "Copies of standard profiles", "statement": "Cloning a standard profile gives one with the same lighting, flags, colours and factors with their curves, and in each channel textures with the same set and image, which it keeps when the original is released.", "quantifier": "every profile with any parameters and any number of textures in each channel", "why_tests_cant": "textures reach their images through samplers and surfaces that belong to a profile; whose they are shows when one profile is released", "anchors": ["FCollada/FCDocument/FCDEffectStandard.cpp:Clone", "FCollada/FCDocument/FCDTexture.cpp:Clone", "FCollada/FCDocument/FCDTexture.cpp:GetSampler"]}
{"id": "C132", "title": "Copies of materials", "statement": "Cloning a material gives a material with the same name, note, technique hints and parameters, and with the same effect or, when the children are cloned, with a clone of it that it owns.", "quantifier": "every material and every library of effects", "why_tests_cant": "the clone of the effect is in the library whether or not the material uses it", "anchors": ["FCollada/FCDocument/FCDMaterial.cpp:Clone", "FCollada/FCDocument/FCDMaterial.cpp:~FCDMaterial"]}
{"id": "C133", "title": "A linear spline converted to Bezier keeps its line", "statement": "Converting a linear spline of two control vertices or more into a Bezier spline gives one Bezier segment for each side of the polygonal line, running along the side from its first end to the other without turning back; the result is closed exactly when the linear spline is.", "quantifier": "every linear spline, open or closed, with any number of vertices, and every Bezier spline to fill", "why_tests_cant": "a test draws one spline; an off by one in how often a vertex is repeated shows only for certain counts and forms", "anchors": ["FCollada/FCDocument/FCDGeometrySpline.cpp:ToBezier", "FCollada/FCDocument/FCDGeometrySpline.cpp:IsValid"]}
{"id": "C134", "title": "A Bezier spline converted to NURBS keeps its curve", "statement": "Converting a Bezier spline to NURBS gives one open NURBS spline for each segment, which passes at every parameter through the same point as the cubic Bezier segment; a closed spline comes back to its first knot. The NURBS splines are valid.", "quantifier": "every Bezier spline, open or closed, with any number of vertices; every parameter", "why_tests_cant": "the curves agree at every parameter or not at all, and the closing segment is read from both ends of the list", "anchors": ["FCollada/FCDocument/FCDGeometrySpline.cpp:ToNURBs", "FCollada/FCDocument/FCDGeometrySpline.cpp:AddCV"]}
{"id": "C135", "title": "The splines of a geometry", "statement": "Every spline of a geometric spline has its type after any sequence of operations; adding a spline of another type is refused; a copy has the same splines in order with all their fields; the count of vertices is the sum over the splines; validity means what the classes say; a geometry has a mesh or a spline but not both.", "quantifier": "every sequence of changes of type, additions, changes of splines and releases; every spline", "why_tests_cant": "the type is checked when a spline is added only; what a history of changes, copies and clears leads to is not enumerable", "anchors": ["FCollada/FCDocument/FCDGeometrySpline.cpp:AddSpline", "FCollada/FCDocument/FCDGeometrySpline.cpp:SetType", "FCollada/FCDocument/FCDGeometrySpline.cpp:Clone", "FCollada/FCDocument/FCDGeometrySpline.cpp:GetTotalCVCount", "FCollada/FCDocument/FCDGeometrySpline.cpp:ConvertBezierToNURBS", "FCollada/FCDocument/FCDGeometry.cpp:CreateSpline", "FCollada/FCDocument/FCDGeometry.cpp:Clone"]}
{"id": "C136", "title": "The copy of an asset is like the original", "statement": "Cloning an asset gives one with the same dates of creation, texts, up-axis and length unit, each set exactly when it is set in the original, and with the same contributors in order when they are asked for; the date of modification is that of the copy. A contributor is empty exactly when all its texts are.", "quantifier": "every asset with any number of contributors", "why_tests_cant": "which of a dozen fields and flags is forgotten shows only when each has a value of its own", "anchors": ["FCollada/FCDocument/FCDAsset.cpp:Clone", "FCollada/FCDocument/FCDAsset.cpp:IsEmpty"]}
{"id": "C137", "title": "The copy of an entity is like the original", "statement": "Cloning an entity gives one of the same class with the same name, note, extra tree, asset and fields of its class: target, image file and size, information of a force field, views of a camera, colours and angles of a light.", "quantifier": "every entity of these classes with any fields", "why_tests_cant": "a test clones one class; which classes do not override the cloning is seen only by going through them all", "anchors": ["FCollada/FCDocument/FCDEntity.cpp:Clone", "FCollada/FCDocument/FCDTargetedEntity.cpp:Clone", "FCollada/FCDocument/FCDImage.cpp:Clone", "FCollada/FCDocument/FCDEmitter.cpp:Clone", "FCollada/FCDocument/FCDForceField.cpp:Clone", "FCollada/FCDocument/FCDEntity.cpp:GetHierarchicalAssets"]}
{"id": "C138", "title": "A scene node knows whether it is a target", "statement": "A scene node is a target exactly when some camera or light has it as its target; its count is the number of them, after any sequence of changes of targets, copies and releases.", "quantifier": "every history of nodes and targeted entities", "why_tests_cant": "the count is kept on one side and the pointers on the other; only a history can make them differ", "anchors": ["FCollada/FCDocument/FCDTargetedEntity.cpp:SetTargetNode", "FCollada/FCDocument/FCDTargetedEntity.cpp:Clone", "FCollada/FCDocument/FCDSceneNode.h:IsTarget"]}
{"id": "C139", "title": "The views of a camera and its aspect ratio", "statement": "Setting a view of a camera stores it and marks it as set; with both views set the aspect ratio is their quotient as documented.", "quantifier": "every camera and every value", "why_tests_cant": "a quotient and its inverse agree on the square cameras of tests; the zero views are corner cases", "anchors": ["FCollada/FCDocument/FCDCamera.cpp:SetFovX", "FCollada/FCDocument/FCDCamera.cpp:SetFovY", "FCollada/FCDocument/FCDCamera.cpp:SetAspectRatio", "FCollada/FCDocument/FCDCamera.h:GetAspectRatio"]}
{"id": "C140", "title": "Loading a penumbra sets the two angles of a light", "statement": "Loading a penumbra into a light makes its fall-off angle the smaller and its outer angle the larger of the fall-off angle and the fall-off angle plus twice the penumbra; if only one of the fall-off angle and the penumbra is animated, the animations of the two angles have these values at each time.", "quantifier": "every light, penumbra and animation curve, and every time", "why_tests_cant": "a test checks a few times of a positive penumbra; which curve is shared, and which one is read after its keys are deleted, depends on what is animated and on the sign", "anchors": ["FCollada/FCDocument/FCDLightTools.cpp:LoadPenumbra", "FCollada/FCDocument/FCDLightTools.h:LoadPenumbra"]}
{"id": "C141", "title": "A penumbra and a fall-off angle that are both animated", "statement": "If the fall-off angle and the penumbra are both animated, loading the penumbra ends, and at each time the animations of the two angles are the smaller and the larger of the fall-off angle and the fall-off angle plus twice the penumbra at this time, also where the penumbra changes its sign.", "quantifier": "every pair of curves and every time", "why_tests_cant": "that a search for a change of sign ends, and that merged keys are exchanged at exactly the right places, are statements about all curves", "anchors": ["FCollada/FCDocument/FCDLightTools.cpp:LoadPenumbra"]}
{"id": "C142", "title": "Sources of saved files are read back", "statement": "A list of numbers, vectors, matrices or names written to a file as a source is read back with its length and its values, the numbers as their decimal text shows them, whatever the receiving list held before; the ids by which accessors find arrays are read back too.", "quantifier": "every list of values, of any length below 2^32, and every id", "why_tests_cant": "a test saves and loads a few short sources; that count, stride and values agree for every length and every content is a statement about all lists", "anchors": ["FColladaPlugins/FArchiveXML/FAXColladaWriter.cpp:AddSourceFloat,AddSourceMatrix,AddSourceString,AddArray,AddAccessor", "FColladaPlugins/FArchiveXML/FAXColladaParser.cpp:ReadSource"]}
{"id": "C143", "title": "Extra trees are saved and loaded", "statement": "An extra tree with its types, techniques, nodes, attributes and contents is read back from what is written for it; a tree without nodes writes nothing.", "quantifier": "every extra tree", "why_tests_cant": "trees nest without bound, and a type, a profile or a content may be lost or merged only for particular texts", "anchors": ["FColladaPlugins/FArchiveXML/FAXEntityExport.cpp:WriteExtra,WriteExtraNode", "FColladaPlugins/FArchiveXML/FAXEntityImport.cpp:LoadExtra,LoadExtraNode,LoadExtraType"]}
{"id": "C144", "title": "Assets are saved and loaded", "statement": "An asset is read back from what is written for it: dates, contributors, keywords, revision, subject, title, up-axis and unit. Only the time of modification becomes the time of saving.", "quantifier": "every asset and every time of saving", "why_tests_cant": "texts, units and axes range over all values; the losses occur only for particular ones", "anchors": ["FColladaPlugins/FArchiveXML/FAXEntityExport.cpp:WriteAsset,WriteAssetContributor", "FColladaPlugins/FArchiveXML/FAXEntityImport.cpp:LoadAsset,LoadAssetContributor"]}
{"id": "C145", "title": "The common part of entities is saved and loaded", "statement": "The id, name, note, asset, extra tree and target of an entity are read back from what is written for it, whatever else is in its element, and saving does not change the entity beyond the time of modification of its asset.", "quantifier": "every entity and every other content of its element", "why_tests_cant": "note and target are put into the extra tree of the user and taken out again, so that a clash with what the user has there matters only for particular trees", "anchors": ["FColladaPlugins/FArchiveXML/FAXSceneExport.cpp:WriteEntityExtra,WriteTargetedEntityExtra", "FColladaPlugins/FArchiveXML/FAXSceneImport.cpp:LoadEntity,LoadTargetedEntity"]}
{"id": "C146", "title": "Polygon sets are saved and loaded", "statement": "A polygon set that is saved and loaded again has the same kind of primitives, the same faces with the same holes, the same material and extra tree, and an input for each source with its set, its offset and the index of every corner; the sources get their types back, and the load succeeds.", "quantifier": "every polygon set of every mesh, whatever the number of faces, holes, inputs and offsets", "why_tests_cant": "faces with and without holes, triangles, lines, strips and fans are written in different forms, with the indices of all inputs interleaved; that every corner gets its own indices back is a statement about all lists of faces and inputs", "anchors": ["FColladaPlugins/FArchiveXML/FAXGeometryExport.cpp:WriteGeometryPolygons", "FColladaPlugins/FArchiveXML/FAXGeometryImport.cpp:LoadGeometryPolygons", "FCollada/FCDocument/FCDGeometryPolygonsInput.cpp:AddIndices,FindIndices"]}
{"id": "C147", "title": "Meshes are saved and loaded", "statement": "A mesh that is saved and loaded again has the same sources, with their ids, names, types, strides, numbers and extra trees, the same per-vertex sources, and the same polygon sets, with the set numbers of all inputs; a mesh given as the convex hull of another is still that.", "quantifier": "every mesh, whatever the number of sources, polygon sets and inputs", "why_tests_cant": "the types of sources, the per-vertex sources and the set numbers are not stored with the sources but rebuilt from the inputs of several elements in several passes; that they come back is a statement about all meshes", "anchors": ["FColladaPlugins/FArchiveXML/FAXGeometryExport.cpp:WriteGeometrySource,WriteGeometryMesh", "FColladaPlugins/FArchiveXML/FAXGeometryImport.cpp:LoadGeometrySource,LoadGeometryMesh,SetTypeFCDGeometrySource"]}
{"id": "C148", "title": "Sub-ids given to written elements are unique in their scope", "statement": "When an element is given a sub-id on saving, it is the wanted one if no element in the same scope has it, and otherwise one that no element in the scope has; what the library remembers is the sub-id in the file.", "quantifier": "every tree of elements written so far, whatever its depth and the sub-ids in it, and every wanted sub-id", "why_tests_cant": "animations find their targets by sub-ids, and whether a clash happens depends on everything that was written before; tests cover a few short files", "anchors": ["FColladaPlugins/FArchiveXML/FAXColladaWriter.cpp:AddNodeSid", "FColladaPlugins/FArchiveXML/FAXColladaParser.cpp:FindHierarchyChildBySid"]}
{"id": "C149", "title": "Transforms are saved and loaded", "statement": "The transforms of a scene node that are saved and loaded again are the same transforms in the same order, with the same values up to the printed digits and with the sub-ids that they have after saving, which are all different.", "quantifier": "every list of transforms of the six kinds, with all values and sub-ids, and every element they are written into", "why_tests_cant": "the order of the transforms and of their numbers decides the position of everything in the scene; tests load a few nodes", "anchors": ["FColladaPlugins/FArchiveXML/FAXSceneExport.cpp:WriteTransformLookAt,WriteTransformMatrix,WriteTransformRotation,WriteTransformScale,WriteTransformSkew,WriteTransformTranslation,WriteTransformBase", "FColladaPlugins/FArchiveXML/FAXSceneImport.cpp:LoadTransformLookAt,LoadTransformMatrix,LoadTransformRotation,LoadTransformScale,LoadTransformSkew,LoadTransformTranslation,GetTransformType"]}
{"id": "C150", "title": "Scene node hierarchies are saved and loaded", "statement": "A visual scene that is saved and loaded again has the same nodes in the same hierarchy, each with the same id, name, sub-id, type, visibility, note, asset, extra tree, transforms and instances, and a node with several parents is again a child of each of them.", "quantifier": "every tree of nodes of any depth with links between its branches, and every document it is loaded into", "why_tests_cant": "which links survive depends on the order of the whole hierarchy; tests use a few shallow scenes", "anchors": ["FColladaPlugins/FArchiveXML/FAXSceneExport.cpp:WriteSceneNode", "FColladaPlugins/FArchiveXML/FAXSceneImport.cpp:LoadSceneNode,LoadFromExtraSceneNode", "FColladaPlugins/FArchiveXML/FAXInstanceExport.cpp:WriteEntityInstance", "FCollada/FCDocument/FCDSceneNode.cpp:AddChildNode,SetSubId"]}
{"id": "C151", "title": "Cameras are saved and loaded", "statement": "A camera that is saved and loaded again has the same projection, views, aspect ratio, near and far plane, name, note, asset, extra tree and target.", "quantifier": "every camera that the setters can make, with every combination of views in use", "why_tests_cant": "what is read back depends on which views are set and on the order in which they are set again; tests load one camera", "anchors": ["FColladaPlugins/FArchiveXML/FAXCameraExport.cpp:WriteCamera", "FColladaPlugins/FArchiveXML/FAXCameraImport.cpp:LoadCamera", "FCollada/FCDocument/FCDCamera.cpp:SetFovX,SetFovY"]}
{"id": "C152", "title": "Lights are saved and loaded", "statement": "A light that is saved and loaded again has the same type, color, intensity, attenuation factors, fall-off, angles, name, note, asset, extra tree and target, and saving does not change it.", "quantifier": "every light of each of the four types with every extra tree", "why_tests_cant": "part of the values travel through parameters added to the extra tree of the user; tests use lights without extra trees", "anchors": ["FColladaPlugins/FArchiveXML/FAXLightExport.cpp:WriteLight", "FColladaPlugins/FArchiveXML/FAXLightImport.cpp:LoadLight", "FCollada/FCDocument/FCDLightTools.cpp:LoadPenumbra"]}
{"id": "C153", "title": "Skins are saved and loaded", "statement": "A skin that is saved and loaded again deforms the same target and has the same bind-shape transform, joints, bind-poses and, for every vertex, the same joints and weights; whatever skin a file holds, a skin that is loaded names only joints it has.", "quantifier": "every skin with any number of joints, vertices and weights; for the second part every file", "why_tests_cant": "weights are shared, numbered and normalized over the whole mesh, and the text of the indices is as long as the mesh; damaged files are without number", "anchors": ["FColladaPlugins/FArchiveXML/FAXControllerExport.cpp:WriteSkinController", "FColladaPlugins/FArchiveXML/FAXControllerImport.cpp:LoadSkinController", "FColladaPlugins/FArchiveXML/FAXColladaParser.cpp:FindChildById"]}
{"id": "C154", "title": "Morphers are saved and loaded", "statement": "A morpher that is saved, loaded and linked again has the same method, the same base target and the same targets with their weights; whatever file it comes from, its targets have as many vertices as its base.", "quantifier": "every morpher with any number of targets in any document; for the second part every file", "why_tests_cant": "which targets remain depends on all geometries of the document; bases are linked only after everything is loaded", "anchors": ["FColladaPlugins/FArchiveXML/FAXControllerExport.cpp:WriteMorphController", "FColladaPlugins/FArchiveXML/FAXControllerImport.cpp:LoadMorphController", "FColladaPlugins/FArchiveXML/FAXImportLinking.cpp:LinkMorphController", "FCollada/FCDocument/FCDMorphController.cpp:SetBaseTarget,IsSimilar"]}
{"id": "C155", "title": "The libraries of a document are saved and loaded", "statement": "A saved document is loaded with the same entities in each library in the same order, with its asset, its extra tree, its scene instances and the assets and extra trees of its libraries. Whatever the order of the libraries in a file, entities are loaded in the order of their kinds, so that an entity comes after those it refers to, and those of one kind in the order of the file.", "quantifier": "every document with any number of entities in each library; for the second part every file", "why_tests_cant": "the order in a file is free and several libraries of one kind may appear; what is lost depends on which libraries are empty", "anchors": ["FColladaPlugins/FArchiveXML/FArchiveXML.cpp:Import,ExportDocument,LoadLibrary,WriteLibrary"]}
{"id": "C156", "title": "Instances are saved and loaded", "statement": "An instance of an entity, of a material, of a geometry or of a controller that is saved is loaded with the same entity, sub-id, name, extra tree, effect parameters, materials with their symbols and bindings, and skeleton roots.", "quantifier": "every instance with valid identifiers, any number of materials, bindings, parameters and roots", "why_tests_cant": "what is lost or added depends on which parts are empty and on what the polygons of the mesh are named", "anchors": ["FColladaPlugins/FArchiveXML/FAXInstanceExport.cpp:WriteEntityInstance,WriteGeometryInstance,WriteControllerInstance,WriteMaterialInstance", "FColladaPlugins/FArchiveXML/FAXInstanceImport.cpp:LoadEntityInstance,LoadGeometryInstance,LoadControllerInstance,LoadMaterialInstance"]}
{"id": "C157", "title": "Animation curves are saved and loaded", "statement": "The channels of an animation that is saved are loaded with the same pointers and qualifiers, and their curves with the same keys, interpolations, tangents, tensions, eases, infinities and drivers.", "quantifier": "every animation with any number of channels, curves and keys of any kind", "why_tests_cant": "what the writer puts before the interpolations is memory that it never set, and elements are found by the CRC-32 of their ids", "anchors": ["FColladaPlugins/FArchiveXML/FAXAnimationExport.cpp:WriteAnimationChannel,WriteSourceFCDAnimationCurve,WriteSamplerFCDAnimationCurve,WriteChannelFCDAnimationCurve", "FColladaPlugins/FArchiveXML/FAXAnimationImport.cpp:LoadAnimationChannel,LoadAnimation,FindChildByIdFCDAnimation"]}
{"id": "C158", "title": "Animation curves are linked to the values they animate", "statement": "When a document is loaded, the curves that were saved for the floats of an animated value are linked to the same floats and to no others, whatever the order of the channels and the depth of the animations, and the curves that are driven by a value get it as their driver. A driver that is missing is reported.", "quantifier": "every animated value of every kind, every library of animations of any depth, every list of channels", "why_tests_cant": "which float gets a curve depends on how its qualifier is spelled and on all channels with the same pointer", "anchors": ["FColladaPlugins/FArchiveXML/FAXAnimationImport.cpp:ProcessChannels,FindAnimationChannels,LoadAnimatable", "FColladaPlugins/FArchiveXML/FAXAnimationExport.cpp:WriteAnimatedValue", "FColladaPlugins/FArchiveXML/FAXImportLinking.cpp:LinkDriver,LinkAnimation,LinkAnimated"]}
{"id": "C159", "title": "Joints and targets are linked to scene nodes", "statement": "When a document is loaded, the joints of an instance of a skinned controller become the scene nodes that the skin names, in the order of the skin, looked for below the skeleton roots by identifier or by sub-id; an instance whose roots were computed before it was saved gets exactly its joints back. The target of a camera or light becomes the scene node it was saved with. What is missing is reported.", "quantifier": "every scene graph a program can build, every skin and list of roots, every naming of the nodes", "why_tests_cant": "which node is found depends on the whole scene graph, on shared nodes and on the order of the roots", "anchors": ["FColladaPlugins/FArchiveXML/FAXInstanceImport.cpp:LinkControllerInstance", "FCollada/FCDocument/FCDControllerInstance.cpp:FindSkeletonNodes,CalculateRootIds,AddJoint", "FColladaPlugins/FArchiveXML/FAXImportLinking.cpp:LinkTargetedEntity"]}
{"id": "C160", "title": "Animation clips are saved and loaded", "statement": "A clip that is saved and loaded has the same identifier, name, note, asset, extra tree, start and end, and instances of the same animations, once each.", "quantifier": "every clip, every set of curves and animations", "why_tests_cant": "which animations are written depends on the curves of the clip, and what is lost only shows when a loaded file is saved again", "anchors": ["FColladaPlugins/FArchiveXML/FAXAnimationExport.cpp:WriteAnimationClip", "FColladaPlugins/FArchiveXML/FAXAnimationImport.cpp:LoadAnimationClip", "FCollada/FCDocument/FCDAnimationClip.h:SetAnimationName"]}
{"id": "C161", "title": "Trees of animations are saved and loaded", "statement": "Animations that contain animations are saved and loaded as the same tree, each with its own common part and channels; samplers and sources are found in the animation of the channel before those around it.", "quantifier": "every tree of animations, of any depth and width, with any channels", "why_tests_cant": "the tree has any depth, and the search for sources depends on all the elements around an animation", "anchors": ["FColladaPlugins/FArchiveXML/FAXAnimationExport.cpp:WriteAnimation", "FColladaPlugins/FArchiveXML/FAXAnimationImport.cpp:LoadAnimation,LoadAnimationChannel,FindChildByIdFCDAnimation"]}
{"id": "C162", "title": "Surfaces are saved and loaded", "statement": "A surface that is saved and loaded has the same type, format, format hint, number of mip levels, size or viewport ratio, and the same images with the same method of initialization.", "quantifier": "every surface, with every method of initialization and any images", "why_tests_cant": "what is lost depends on the method and on the lengths of several lists together", "anchors": ["FColladaPlugins/FArchiveXML/FAXMaterialExport.cpp:WriteEffectParameterSurface", "FColladaPlugins/FArchiveXML/FAXMaterialImport.cpp:LoadEffectParameterSurface", "FColladaPlugins/FArchiveXML/FAXImportLinking.cpp:LinkEffectParameterSurface"]}
{"id": "C163", "title": "Effect parameters are saved and loaded", "statement": "A parameter of an effect that is saved and loaded is of the same class and usage and has the same reference, semantic, annotations and value; a sampler finds its surface again.", "quantifier": "every parameter of every class and usage, below every element", "why_tests_cant": "the combinations of class, usage and annotations are unbounded, and wrong values only show in another program", "anchors": ["FColladaPlugins/FArchiveXML/FAXMaterialExport.cpp:WriteEffectParameter*", "FColladaPlugins/FArchiveXML/FAXMaterialImport.cpp:LoadEffectParameter*,GetEffectParameterType", "FColladaPlugins/FArchiveXML/FAXImportLinking.cpp:LinkEffectParameterSampler"]}
{"id": "C164", "title": "Render states are saved and loaded", "statement": "A render state of any kind that is saved and loaded has the same values in the documented places of its data, and is loaded as the same kind.", "quantifier": "every kind of render state and all values of its documented fields", "why_tests_cant": "there are 108 kinds, each with its own layout, written and read by two separate tables of offsets and names", "anchors": ["FColladaPlugins/FArchiveXML/FAXMaterialExport.cpp:WriteEffectPassState", "FColladaPlugins/FArchiveXML/FAXMaterialImport.cpp:LoadEffectPassState", "FCollada/FUtils/FUDaeEnum.cpp:FUDaePassState*", "FCollada/FUtils/FUDaeEnum.h:FUDaePassState"]}
{"id": "C165", "title": "Passes and shaders are saved and loaded", "statement": "A pass that is saved and loaded has its name, its render states and its shaders in the same order; every shader has its stage, name, compiler information, bindings and code.", "quantifier": "every pass that can be made, every set of surrounding elements and every technique the pass belongs to", "why_tests_cant": "states are re-sorted on loading, names are changed when taken and codes are found again by sub-id in two places", "anchors": ["FColladaPlugins/FArchiveXML/FAXMaterialExport.cpp:WriteEffectPass", "FColladaPlugins/FArchiveXML/FAXMaterialExport.cpp:WriteEffectPassShader", "FColladaPlugins/FArchiveXML/FAXMaterialImport.cpp:LoadEffectPass", "FColladaPlugins/FArchiveXML/FAXMaterialImport.cpp:LoadEffectPassShader"]}
{"id": "C166", "title": "Techniques, codes and FX profiles are saved and loaded", "statement": "An FX profile that is saved and loaded has its platform, codes, parameters, techniques and extra; a technique has its name, codes, parameters and passes, and its shaders have their codes again.", "quantifier": "every profile, every technique and every set of surrounding elements, with any number of codes, equal sub-ids among them", "why_tests_cant": "codes insert themselves before parameters, sub-ids are changed while saving and the codes of shaders are found again by these", "anchors": ["FColladaPlugins/FArchiveXML/FAXMaterialExport.cpp:WriteEffectCode", "FColladaPlugins/FArchiveXML/FAXMaterialExport.cpp:WriteEffectTechnique", "FColladaPlugins/FArchiveXML/FAXMaterialExport.cpp:WriteEffectProfileFX", "FColladaPlugins/FArchiveXML/FAXMaterialImport.cpp:LoadEffectCode", "FColladaPlugins/FArchiveXML/FAXMaterialImport.cpp:LoadEffectTechnique", "FColladaPlugins/FArchiveXML/FAXMaterialImport.cpp:LoadEffectProfileFX"]}
{"id": "C167", "title": "The common profile is saved and loaded", "statement": "A common profile that is saved and loaded has its lighting, its colours and numbers, the references of those that refer to parameters, its textures in their channels, its flags, its parameters and its extra.", "quantifier": "every common profile, with any number of textures in any channel and any lighting, and every set of surrounding elements", "why_tests_cant": "seventeen elements are written under conditions that depend on the lighting, on flags, on values and on textures, in two places, and are read again by name; textures and values pre-empt each other", "anchors": ["FColladaPlugins/FArchiveXML/FAXMaterialExport.cpp:WriteEffectStandard", "FColladaPlugins/FArchiveXML/FAXMaterialExport.cpp:WriteTexture", "FColladaPlugins/FArchiveXML/FAXMaterialImport.cpp:LoadEffectStandard", "FColladaPlugins/FArchiveXML/FAXMaterialImport.cpp:ParseColorTextureParameter", "FColladaPlugins/FArchiveXML/FAXMaterialImport.cpp:LoadTexture"]}
{"id": "C168", "title": "Images and materials are saved and loaded", "statement": "An image that is saved and loaded has its size and names the same file, though the file is written relative to the folder of the document. A material that is saved and loaded has its effect, its hints and its parameters.", "quantifier": "every image with any file and every folder of the document; every material with any number of hints and parameters", "why_tests_cant": "the path of the file goes through six functions on paths, URIs and escapes that each have their own notion of special characters, and what comes back depends on the folders that file and document share", "anchors": ["FColladaPlugins/FArchiveXML/FAXMaterialExport.cpp:WriteImage", "FColladaPlugins/FArchiveXML/FAXMaterialImport.cpp:LoadImage", "FColladaPlugins/FArchiveXML/FAXMaterialExport.cpp:WriteMaterial", "FColladaPlugins/FArchiveXML/FAXMaterialImport.cpp:LoadMaterial", "FCollada/FCDocument/FCDImage.cpp:SetFilename"]}
{"id": "C169", "title": "Effects are saved and loaded", "statement": "An effect that is saved and loaded has its parameters and all its profiles, in their order and with their types, whatever sub-ids the profiles have in common, and loading gives no warnings.", "quantifier": "every effect with any number of parameters and of common and FX profiles with any number of codes, techniques and passes", "why_tests_cant": "the sub-ids that a profile is given depend on everything that was written before it into the element of the effect, so one profile changes what another one writes", "anchors": ["FColladaPlugins/FArchiveXML/FAXMaterialExport.cpp:WriteEffect", "FColladaPlugins/FArchiveXML/FAXMaterialImport.cpp:LoadEffect", "FCollada/FCDocument/FCDEffect.cpp:AddProfile", "FCollada/FUtils/FUDaeEnum.cpp:FUDaeProfileType"]}
{"id": "C170", "title": "A texture shows its image again after saving and loading", "statement": "A texture that shows an image through a sampler and a surface shows the same image after the effect has been saved, loaded and linked, wherever sampler and surface are declared; the nearest parameter of a reference is the one that counts.", "quantifier": "every effect with any number of profiles, parameters, channels and textures; every document with any number of images", "why_tests_cant": "four objects have to find each other by names that pass through the writer and the loader, in an order of scopes that depends on which object declares which parameter", "anchors": ["FColladaPlugins/FArchiveXML/FAXImportLinking.cpp:LinkTexture", "FColladaPlugins/FArchiveXML/FAXImportLinking.cpp:LinkEffectParameterSampler", "FColladaPlugins/FArchiveXML/FAXImportLinking.cpp:LinkEffectStandard", "FColladaPlugins/FArchiveXML/FAXImportLinking.cpp:LinkEffect", "FCollada/FCDocument/FCDTexture.cpp:GetImage"]}
{"id": "C171", "title": "Loading a file that refers to other files is completed and leaves nothing behind", "statement": "Loading a file is completed without undefined behaviour when it links only objects that it has loaded, whatever other files are loaded on the way; afterwards no intermediate data are left, so that every later load and every import of a single object starts from nothing.", "quantifier": "every set of files with any references between them, every order of loading, noting and linking, every history of imports", "why_tests_cant": "the data are shared by all imports of the process, and an import starts others in its middle when a reference is resolved", "anchors": ["FColladaPlugins/FArchiveXML/FArchiveXML.cpp:ImportFile", "FColladaPlugins/FArchiveXML/FArchiveXML.cpp:Import", "FColladaPlugins/FArchiveXML/FArchiveXML.cpp:ImportObject", "FColladaPlugins/FArchiveXML/FArchiveXML.cpp:ClearIntermediateData", "FCollada/FCDocument/FCDPlaceHolder.cpp:LoadTarget", "FCollada/FCDocument/FCDExternalReferenceManager.cpp:RegisterLoadedDocument"]}
{"id": "C172", "title": "Splines are the same after saving and loading", "statement": "The linear, Bezier and NURBS splines of a geometry have, after saving and loading, the same type, closed flag, control vertices, weights, knots and degree.", "quantifier": "every list of splines of the three types, every number of control vertices, weights and knots, every id of the geometry", "why_tests_cant": "the lists are unbounded, and a geometry with one spline hides what happens to several", "anchors": ["FColladaPlugins/FArchiveXML/FAXGeometryExport.cpp:WriteGeometrySpline", "FColladaPlugins/FArchiveXML/FAXGeometryExport.cpp:WriteNURBSSpline", "FColladaPlugins/FArchiveXML/FAXGeometryExport.cpp:WriteSpline", "FColladaPlugins/FArchiveXML/FAXGeometryImport.cpp:LoadGeometrySpline", "FColladaPlugins/FArchiveXML/FAXGeometryImport.cpp:LoadSpline", "FColladaPlugins/FArchiveXML/FAXGeometryImport.cpp:LoadBezierSpline", "FColladaPlugins/FArchiveXML/FAXGeometryImport.cpp:LoadLinearSpline", "FColladaPlugins/FArchiveXML/FAXGeometryImport.cpp:LoadNURBSSpline", "FCollada/FCDocument/FCDGeometrySpline.cpp:SetType"]}
{"id": "C173", "title": "Analytical shapes of physics are the same after saving and loading", "statement": "Boxes, planes, spheres, cylinders, capsules and their tapered kinds have, after saving and loading, the kind, the sizes and the positions they had, with each number as it is shown.", "quantifier": "every analytical shape with any sizes", "why_tests_cant": "there are infinitely many sizes, and a shape whose numbers are all the same hides that they have been moved", "anchors": ["FColladaPlugins/FArchiveXML/FAXPhysicsExport.cpp:WritePASBox", "FColladaPlugins/FArchiveXML/FAXPhysicsExport.cpp:WritePASPlane", "FColladaPlugins/FArchiveXML/FAXPhysicsExport.cpp:WritePASSphere", "FColladaPlugins/FArchiveXML/FAXPhysicsExport.cpp:WritePASCylinder", "FColladaPlugins/FArchiveXML/FAXPhysicsExport.cpp:WritePASCapsule", "FColladaPlugins/FArchiveXML/FAXPhysicsExport.cpp:WritePASTaperedCylinder", "FColladaPlugins/FArchiveXML/FAXPhysicsExport.cpp:WritePASTaperedCapsule", "FColladaPlugins/FArchiveXML/FAXPhysicsImport.cpp:LoadPASPlane", "FColladaPlugins/FArchiveXML/FAXPhysicsImport.cpp:LoadPASBox", "FColladaPlugins/FArchiveXML/FAXPhysicsImport.cpp:LoadPASTaperedCylinder"]}
{"id": "C174", "title": "Physics materials and shapes are the same after saving and loading", "statement": "A physics material has, after saving and loading, the frictions and the restitution it had. A shape has the mass, the density, the hollow flag, the material, the analytical shape and the transforms it had.", "quantifier": "every physics material, every shape with any mass, density, material, analytical shape and list of transforms", "why_tests_cant": "the lists are unbounded, and which of mass and density is written depends on their values", "anchors": ["FColladaPlugins/FArchiveXML/FAXPhysicsExport.cpp:WritePhysicsShape", "FColladaPlugins/FArchiveXML/FAXPhysicsExport.cpp:WritePhysicsMaterial", "FColladaPlugins/FArchiveXML/FAXPhysicsImport.cpp:LoadPhysicsShape", "FColladaPlugins/FArchiveXML/FAXPhysicsImport.cpp:LoadPhysicsMaterial", "FCollada/FCDocument/FCDPhysicsShape.cpp:CalculateVolume"]}
{"id": "C175", "title": "Rigid constraints are the same after saving and loading", "statement": "A rigid constraint has, after saving and loading, the two ends, the transforms of the ends, the flags, the limits and the springs it had.", "quantifier": "every rigid constraint with any lists of transforms, limits and springs, every list of rigid bodies and scene nodes", "why_tests_cant": "the lists are unbounded, and default springs and a single transform hide what is lost", "anchors": ["FColladaPlugins/FArchiveXML/FAXPhysicsExport.cpp:WritePhysicsRigidConstraint", "FColladaPlugins/FArchiveXML/FAXPhysicsImport.cpp:LoadPhysicsRigidConstraint", "FCollada/FCDocument/FCDPhysicsModel.cpp:FindRigidBodyFromSid", "FCollada/FCDocument/FCDPhysicsRigidConstraint.h:SetEnabled"]}
{"id": "C176", "title": "Rigid bodies and physics scenes are the same after saving and loading", "statement": "The parameters of a rigid body, which are its flag, mass, density, inertia, mass frame, own material and shapes, and the gravity and time step of a physics scene, are after saving and loading what they were.", "quantifier": "all parameters with any list of shapes and any material, any default parameters, every physics scene", "why_tests_cant": "the shapes are unbounded, and the default values hide what is not kept", "anchors": ["FColladaPlugins/FArchiveXML/FAXPhysicsExport.cpp:WritePhysicsRigidBodyParameters", "FColladaPlugins/FArchiveXML/FAXPhysicsImport.cpp:LoadPhysicsRigidBodyParameters", "FColladaPlugins/FArchiveXML/FAXPhysicsExport.cpp:WritePhysicsScene", "FColladaPlugins/FArchiveXML/FAXPhysicsImport.cpp:LoadPhysicsScene"]}
{"id": "C177", "title": "A whole document is the same after saving and loading", "statement": "A document that is saved and loaded has the same cameras, lights, images, materials, physics materials and physics scenes in its libraries, in the same order and with the same values up to how numbers are printed, the same elements in its other libraries, and the same assets, extra trees and scenes; saving does not change the document but for times of modification. What is in one library does not affect another.", "quantifier": "all documents with any number of entities in any library, any assets, extra trees, targets and notes, and every date of saving and loading", "why_tests_cant": "every combination of libraries has to survive together, and a defect in one part shows only in documents that have another", "anchors": ["FColladaPlugins/FArchiveXML/FArchiveXML.cpp:ExportDocument", "FColladaPlugins/FArchiveXML/FArchiveXML.cpp:Import", "FColladaPlugins/FArchiveXML/FArchiveXML.cpp:WriteLibrary", "FColladaPlugins/FArchiveXML/FArchiveXML.cpp:LoadLibrary", "FCollada/FCDocument/FCDLibrary.h:FCDLibrary"]}
{"id": "C178", "title": "Geometries and controllers are the same after saving and loading", "statement": "A geometry that is saved and loaded has the same identifier, name, note, asset and extra trees, and the same mesh, or the same spline, up to how numbers are printed; a controller likewise with its skin, or with its morpher, its base and its targets found again. A geometry without either is loaded without either. Only the first mesh of a geometry in a file counts, and with a skin and a morpher in a file the skin counts.", "quantifier": "all geometries with any mesh or spline and all controllers with any skin or morpher, of any sizes, with any extra trees, and all files with any elements beside them", "why_tests_cant": "the sizes and the contents are unbounded", "anchors": ["FColladaPlugins/FArchiveXML/FAXGeometryExport.cpp:WriteGeometry", "FColladaPlugins/FArchiveXML/FAXGeometryImport.cpp:LoadGeometry", "FColladaPlugins/FArchiveXML/FAXControllerExport.cpp:WriteController", "FColladaPlugins/FArchiveXML/FAXControllerImport.cpp:LoadController"]}
{"id": "C179", "title": "The address of an animated element names it", "statement": "The address calculated for an element of a file is its id, or the id of the nearest element above it that has one followed by the sub ids on the way down to it; an element without either, or with no id above it, has the empty address. Different elements have different addresses, so that an animation is linked after loading to the value it was saved for.", "quantifier": "all files of any depth and width with any ids and sub ids, and all pairs of elements of one", "why_tests_cant": "the trees and the names are unbounded and two elements may be arbitrarily far apart", "anchors": ["FColladaPlugins/FArchiveXML/FAXColladaParser.cpp:CalculateNodeTargetPointer", "FColladaPlugins/FArchiveXML/FAXImportLinking.cpp:LinkAnimated", "FColladaPlugins/FArchiveXML/FAXAnimationExport.cpp:WriteAnimatedValue"]}
{"id": "C180", "title": "Convex hulls are made from the mesh they name", "statement": "After loading, a convex mesh that names another geometry has what the mesh of that geometry has, is convex and flagged to be made convex, and still names the geometry, wherever the two are in the library; other meshes are left as they are. The search for the mesh a hull is made of ends, and gives the mesh at the end of the chain of names, or nothing if a name is not known.", "quantifier": "all libraries of geometries of any size, with any names, in any order", "why_tests_cant": "chains of names may be of any length and in any order", "anchors": ["FColladaPlugins/FArchiveXML/FAXImportLinking.cpp:LinkGeometryMesh", "FCollada/FCDocument/FCDGeometryMesh.cpp:FCDGeometryMesh::FindConvexHullOfMesh", "FCollada/FCDocument/FCDGeometryMesh.cpp:FCDGeometryMesh::Clone", "FColladaPlugins/FArchiveXML/FArchiveXML.cpp:Import"]}
{"id": "C181", "title": "A file goes to the archive for its extension, and objects of plug-ins survive saving", "statement": "A file is loaded and saved by the first registered archive that supports its extension, in any case of letters. Extra extensions form a set: adding reports whether the extension was new, removing whether it was there, the extensions of the format stay, and none is listed twice. A document with objects made by plug-ins in its extra trees is the same after it has been saved, and after it has been saved and loaded, if the plug-ins read back what they write.", "quantifier": "all lists of archives and extensions, all file names, all sequences of calls, all plug-ins and techniques", "why_tests_cant": "Depends on the order of registration, on case, on characters in the file name, on the history of calls and on what plug-ins return; a test uses one plug-in and one file.", "anchors": ["FCollada/FColladaPlugin.cpp: FindArchivePlugin, RegisterPlugin, LoadDocumentFromFile, SaveDocumentToFile, PostImportDocument, PreExportDocument, PostExportDocument", "FColladaPlugins/FArchiveXML/FArchiveXML.cpp: AddExtraExtension, RemoveExtraExtension, IsExtensionSupported, GetSupportedExtensionAt"]}
{"id": "C182", "title": "The status of the loading of a document tells whether all of it was loaded", "statement": "The loading of a document succeeds exactly if every part of it is loaded without failure and the user does not ask to stop. All entities of the file are in the document, in the order of the libraries. Once the user asks to stop, nothing more is loaded, what is there is the beginning of the file, and the loading fails; afterwards no document counts as being loaded.", "quantifier": "all files with any libraries and any statuses of their parts, all results of the linking, all sequences of answers of the function that tells whether to stop", "why_tests_cant": "Depends on which parts fail and on when the user stops; tests load good files and never stop.", "anchors": ["FColladaPlugins/FArchiveXML/FArchiveXML.cpp: Import, LoadLibrary", "FColladaPlugins/FArchiveXML/FAXImportLinking.cpp: LinkSceneNode, LinkAnimation", "FCollada/FCollada.cpp: CancelLoading, SetCancelLoadingCallback"]}
{"id": "C183", "title": "Instances of physics models are loaded as they were saved", "statement": "An instance of a physics model that is saved is loaded with the same instances of rigid bodies, rigid constraints and force fields, in the same order. Each names the same body, constraint and scene node, and the instances of rigid bodies have the same velocities and parameters.", "quantifier": "all models with any numbers of rigid bodies and rigid constraints, all lists of instances, all velocities and parameters", "why_tests_cant": "Depends on the names of all objects of the document and on the kinds and the order of the instances; sample files have one body per model.", "anchors": ["FColladaPlugins/FArchiveXML/FAXInstanceExport.cpp: WritePhysicsModelInstance, WritePhysicsRigidBodyInstance, WritePhysicsRigidConstraintInstance", "FColladaPlugins/FArchiveXML/FAXInstanceImport.cpp: LoadPhysicsModelInstance, LoadPhysicsRigidBodyInstance, LoadPhysicsRigidConstraintInstance", "FCollada/FCDocument/FCDPhysicsRigidBodyInstance.cpp: SetRigidBody"]}
{"id": "C184", "title": "Physics models are loaded as they were saved", "statement": "A physics model that is saved is loaded with the same rigid bodies, rigid constraints and instances of other models, in their order. The ends of the constraints are the same bodies and scene nodes. A failure in one of them is a failure of the loading.", "quantifier": "all physics models with any numbers of bodies, constraints and instances, all orders of their elements in a file, all addresses of the elements in memory", "why_tests_cant": "Depends on the order of the elements and on addresses in memory that differ from run to run; sample models have one body and no instances.", "anchors": ["FColladaPlugins/FArchiveXML/FAXPhysicsExport.cpp: WritePhysicsModel, WritePhysicsRigidBody, WritePhysicsRigidConstraint", "FColladaPlugins/FArchiveXML/FAXPhysicsImport.cpp: LoadPhysicsModel, LoadPhysicsRigidBody, LoadPhysicsRigidConstraint, AttachModelInstancesFCDPhysicsModel"]}
{"id": "C185", "title": "Animations of extra elements are linked as they were saved", "statement": "The curves of all channels that point at an element of extra data are linked to its animated value: those of a channel with a qualifier to the float of that name, those of a channel without one to one float each. Saving and loading keeps the floats, their qualifiers and their curves.", "quantifier": "all lists of channels that point at an element, in any order, with any qualifiers and numbers of curves", "why_tests_cant": "The floats of the value are made from the channels, so their number and names depend on the order and the mixture of the channels; a sample has one channel.", "anchors": ["FColladaPlugins/FArchiveXML/FAXImportLinking.cpp: LinkAnimatedCustom", "FColladaPlugins/FArchiveXML/FAXAnimationImport.cpp: ProcessChannels", "FCollada/FCDocument/FCDAnimated.cpp: FCDAnimatedCustom::Resize"]}
{"id": "C186", "title": "The layers and times of a document are loaded as they were saved", "statement": "The layers of a document, in their order, with their names and objects, and its start and end time are the same after saving and loading. They are saved with the visual scene that the document shows. Loading adds them to the layers that are there.", "quantifier": "all documents with any layers, objects and times, all visual scenes with their nodes", "why_tests_cant": "The layers are texts that are joined and split again, and share the extra data of the scene with the rest; a sample has one layer with ordinary names.", "anchors": ["FColladaPlugins/FArchiveXML/FAXSceneExport.cpp: WriteVisualScene, WriteSceneNode", "FColladaPlugins/FArchiveXML/FAXSceneImport.cpp: LoadFromExtraSceneNode"]}
{"id": "C187", "title": "The sampled animation of a scene node covers all its keys and large rotations", "statement": "The times at which the animation of a node is sampled are in order and different. Each key of its curves is among them, up to the tolerance, and nothing else except times that cut rotations of half a turn or more into equal parts of less than half a turn each. There is one matrix for each time, that of the node at this time. The node itself does not change.", "quantifier": "all scene nodes with any transforms, curves and keys", "why_tests_cant": "The times of many curves are merged with a tolerance, and angles are looked up in a second list; a sample has one animated transform with few keys.", "anchors": ["FCollada/FCDocument/FCDSceneNodeTools.cpp: GenerateSampledAnimation", "FCollada/FCDocument/FCDAnimated.cpp: HasCurve"]}
{"id": "C188", "title": "Packed vertices get the influences of the vertices they come from", "statement": "When the influences of a skin are mapped to packed vertices, each packed vertex gets the influences of the old vertex that it comes from, there is one place for each packed index up to the largest one and every place is set, and no array is read or written outside of its bounds.", "quantifier": "all skins, all maps from old to new vertices, all packings", "why_tests_cant": "The places are reached through two maps; a sample has all vertices used and packed.", "anchors": ["FCollada/FCDocument/FCDControllerTools.cpp: ApplyTranslationMap"]}
{"id": "C189", "title": "The sub-ids of instances are unique in their scope when a document is saved", "statement": "Before saving, the sub-ids of the instances of each scene node, physics model and physics scene, and of what these instances contain, are made pairwise different in their scope. Empty ones stay empty, those that are unique stay as they are, and others change only in the number at their end.", "quantifier": "all scenes with any nodes, instances and sub-ids", "why_tests_cant": "Each scope has its own set of names and there are scopes in scopes; a sample has few instances with sub-ids.", "anchors": ["FCollada/FCDocument/FCDEntityInstance.cpp: CleanSubId", "FCollada/FCDocument/FCDGeometryInstance.cpp: CleanSubId", "FCollada/FCDocument/FCDPhysicsModelInstance.cpp: CleanSubId", "FCollada/FCDocument/FCDPhysicsModel.cpp: CleanSubId", "FCollada/FCDocument/FCDPhysicsScene.cpp: CleanSubId", "FCollada/FCDocument/FCDSceneNode.cpp: CleanSubId"]}
{"id": "C190", "title": "The scheme callbacks of file managers are owned by one manager and deleted once", "statement": "After the callbacks of a scheme are set, the scheme has them, its former ones are deleted and those of other schemes are kept. Removing them, also in the destructor, deletes each object once and no others. Cloning gives copies for the same schemes. The file that is opened in the end is taken by no opener, and opening a file ends.", "quantifier": "all histories of setting, removing and cloning callbacks on any managers, all openers", "why_tests_cant": "The faults are in the ownership after several operations and in openers that take their own files; a sample sets callbacks once.", "anchors": ["FCollada/FUtils/FUFileManager.cpp: SetSchemeCallbacks, RemoveSchemeCallbacks, RemoveAllSchemeCallbacks, CloneSchemeCallbacks, OpenFile"]}
{"id": "C191", "title": "Placeholders are linked to the documents that are open", "statement": "After any documents were opened one after the other, each placeholder for the file of an open document has a document, and the document of a placeholder has the url that the placeholder stands for. Opening a document changes no placeholder that has a document already.", "quantifier": "all sequences of opened documents with any urls and placeholders", "why_tests_cant": "It is an invariant of the history: a document may be opened before or after those that refer to it; a sample has two documents.", "anchors": ["FColladaPlugins/FArchiveXML/FAXEntityImport.cpp: RegisterLoadedDocument", "FCollada/FCDocument/FCDPlaceHolder.cpp: LoadTarget", "FCollada/FCollada.cpp: GetAllDocuments"]}
