{"id": "C01", "title": "SHA-256 digests are correct for every input", "statement": "Hashing any byte string shorter than 2^61 bytes with the library's SHA256 object (one call of add, or operator()) and asking for the digest yields exactly the 32 bytes that FIPS 180-4 prescribes for that byte string; the text form is its 64 lower-case hex digits.", "quantifier": "every byte string of length below 2^61", "why_tests_cant": "Test vectors cover a handful of messages and only a few residues of the length modulo 64; a wrong padding boundary, a wrong constant or a wrong register in the unrolled rounds may only show for other lengths or contents.", "anchors": ["src/sha256/sha256.cpp: SHA256::add, processBlock, processBuffer, getHash, operator()", "src/HashManager.cpp: CreateHash"]}
{"id": "C02", "title": "Streaming a message in pieces does not change its digest", "statement": "Feeding a message to the hash object in any number of add calls of any sizes (including zero) gives the same digest as feeding it in one call, and asking for the digest in between does not change any later digest.", "quantifier": "every message, every way to cut it into pieces, every placement of getHash calls", "why_tests_cant": "The number of ways to cut a message is exponential in its length; the interplay of partially filled buffer, full blocks and remainder cannot be enumerated.", "anchors": ["src/sha256/sha256.cpp: SHA256::add, getHash"]}
{"id": "C03", "title": "A file added to an archive reads back unchanged", "statement": "After any sequence of successful AddFile calls on a freshly created archive, GetFile on each added name returns exactly the bytes that were added under that name, also for names added early and followed by many others.", "quantifier": "every sequence of (name, content) pairs with pairwise different names within the ZIP format's limits, stored or compressed with any lossless codec", "why_tests_cant": "Every AddFile rewrites the complete archive; the offsets stored in the headers depend on everything written before, so errors may need particular sizes, counts or orders.", "anchors": ["src/Wrapper/ZIPFileImpl.cpp: AddFile, GetFile, GetFileInfo, GetFileCentralHeaderPosition, WriteLocalFileHeader, WriteCentralDirectoryHeader, WriteEndHeader, GetZipArchiveInfo", "src/Wrapper/ZIPFileBuffer.cpp: Write, Read"]}
{"id": "C04", "title": "Walking an archive lists each added file once, in order", "statement": "Starting GetNextFile with the empty path and feeding each returned path back enumerates exactly the names added, in the order they were added, each once, and then reports the end, so an import loop terminates.", "quantifier": "every sequence of successful AddFile calls within the format's limits", "why_tests_cant": "The iteration is re-located by name search on every step; loops or skipped entries depend on the whole directory content.", "anchors": ["src/Wrapper/ZIPFileImpl.cpp: GetNextFile, GetFileCentralHeaderPosition, GetCentralDirPosition", "src/SceneDataExchange.cpp: ReadFromFile", "src/GDTFManager.cpp: GdtfFixture::ImportFromZip"]}
{"id": "C05", "title": "Adding a name twice is refused and changes nothing", "statement": "AddFile with a name that is already in the archive returns an error and the archive keeps exactly the bytes it had; hence no entry is ever overwritten or shadowed.", "quantifier": "every reachable archive and every name already in it", "why_tests_cant": "Depends on the directory search finding the name at any position in any archive.", "anchors": ["src/Wrapper/ZIPFileImpl.cpp: AddFile, GetFileCentralHeaderPosition"]}
{"id": "C06", "title": "Asking for a missing archive entry is reported as an error", "statement": "GetFileInfo and GetFile for a name that is not in the archive return an error and deliver no data.", "quantifier": "every reachable archive and every name not in it", "why_tests_cant": "The claim is about all absent names in all archives.", "anchors": ["src/Wrapper/ZIPFileImpl.cpp: GetFile, GetFileInfo"]}
{"id": "C07", "title": "Removing an archive entry leaves the others intact", "statement": "After RemoveFile(name) on an archive containing name, walking the archive lists exactly the other names in their order and their contents are unchanged.", "quantifier": "every reachable archive and every name in it", "why_tests_cant": "Needs the rewritten offsets to be right for every position of the removed entry.", "anchors": ["src/Wrapper/ZIPFileImpl.cpp: RemoveFile"]}
{"id": "C08", "title": "Walking an archive by extension finds the matching files", "statement": "GetNextFile(path, extension) returns the next entry after path whose name has the extension if there is one, and an error otherwise.", "quantifier": "every reachable archive, start path and extension", "why_tests_cant": "The claim ranges over all archives.", "anchors": ["src/Wrapper/ZIPFileImpl.cpp: GetNextFile(path, extension, outPath)"]}
{"id": "C09", "title": "UUIDs survive printing and parsing", "statement": "Printing any 128-bit UUID and reading the text back, in the bare 36 character form used in GDTF/MVR files and in the braced 38 character form, gives the same UUID; different UUIDs print differently.", "quantifier": "all 2^128 UUIDs", "why_tests_cant": "2^128 values cannot be enumerated; mistakes in one nibble or in the byte order of one field may be symmetric on samples.", "anchors": ["src/UUID.cpp: VWUUID::ToString, FromString", "src/XmlFileHelper.cpp: GdtfConverter::ConvertUUID"]}
{"id": "C10", "title": "Malformed UUID text is reported", "statement": "Reading a non-empty text that is not a UUID (wrong length, misplaced dashes, non-hex digits) is reported to the caller as a failure rather than yielding a UUID.", "quantifier": "every text", "why_tests_cant": "The set of malformed texts is infinite.", "anchors": ["src/UUID.cpp: VWUUID::FromString, HexChar2Byte", "src/XmlFileHelper.cpp: GdtfConverter::ConvertUUID"]}
{"id": "C11", "title": "DMX values survive writing and reading", "statement": "For every channel resolution of 1 to 4 bytes and every value a channel of this resolution can hold, writing the value and reading the text back for a channel of the same resolution succeeds and gives the same value.", "quantifier": "all resolutions and all 2^8+2^16+2^24+2^32 values", "why_tests_cant": "Four billion values; and the text parser has separate branches for equal and different byte counts.", "anchors": ["src/XmlFileHelper.cpp: GdtfConverter::ConvertDMXValue (both directions), SplitStr, GetChannelMaxDmx"]}
{"id": "C12", "title": "Reading a DMX value of another resolution scales it correctly", "statement": "Reading 'v/n' with v in the range of n bytes for a channel of m bytes gives a value inside the channel's range, maps 0 to 0 and full to full, is monotone in v, and 'v/ns' (byte mirroring off) shifts by exactly 8(m-n) bits.", "quantifier": "all v, n, m in 1..4", "why_tests_cant": "Floating point scaling with a final clamp; the worst cases are at rounding boundaries among 2^32 values.", "anchors": ["src/XmlFileHelper.cpp: GdtfConverter::ConvertDMXValue"]}
{"id": "C13", "title": "DMX addresses survive writing and reading", "statement": "Writing an absolute DMX address and reading it back gives the same address; the 'universe.address' form denotes (universe-1)*512+address; out-of-range parts are reported.", "quantifier": "all addresses, universes and texts", "why_tests_cant": "Range conditions with narrowing conversions fail only on particular magnitudes.", "anchors": ["src/XmlFileHelper.cpp: GdtfConverter::ConvertDMXAdress", "src/SceneDataExchange.cpp: SceneDataDmxAdress"]}
{"id": "C14", "title": "Universe/address split and join are inverse", "statement": "An address object built from universe u and address a (1..512) reports universe u and address a, and an object built from an absolute address reports a universe and an address in 1..512 that recombine to it.", "quantifier": "every universe, every address 1..512, every absolute address", "why_tests_cant": "The split uses a counting loop over unbounded universes.", "anchors": ["src/SceneDataExchange.cpp: SceneDataDmxAdress::SceneDataDmxAdress, GetAdress, GetUniverse"]}
{"id": "C15", "title": "Channel offsets survive writing and reading", "statement": "The list of DMX addresses a channel occupies (coarse, fine, ultra, uber; or none for a virtual channel) is unchanged by writing it to and reading it from the file text.", "quantifier": "every list of positive integer offsets", "why_tests_cant": "Unbounded lists and magnitudes; the list splitter has special cases for empty fields.", "anchors": ["src/XmlFileHelper.cpp: GdtfConverter::ConvertDmxOffset, ConvertIntegerArray, Deserialize"]}
{"id": "C16", "title": "Dates survive writing and reading", "statement": "Writing any date-time with 4-digit year and in-range fields and reading it back yields the same date-time; a text with missing parts is reported and does not produce a date.", "quantifier": "all dates; all texts", "why_tests_cant": "Combinatorial; zero padding boundary at 9/10 in each field.", "anchors": ["src/XmlFileHelper.cpp: GdtfConverter::ConvertDate, IntToString2Digits, DeserializeUTC_Date"]}
{"id": "C17", "title": "Hex identifiers survive writing and reading", "statement": "Writing an unsigned hexadecimal identifier (ESTA/RDM ids) and reading it returns the same number; text without the 0x prefix or with non-hex digits is reported.", "quantifier": "every value; every text", "why_tests_cant": "Value ranges of 2^16/2^32; error texts infinite.", "anchors": ["src/XmlFileHelper.cpp: GdtfConverter::ConvertHexValue"]}
{"id": "C18", "title": "Every enumeration value survives writing and reading", "statement": "For each of the file format's enumerations (snap, master, relation, physical unit, primitive type, special attribute, beam type, lamp type, interpolation, colour sample, ...), writing a value and reading the text gives the value back, distinct values have distinct texts also when compared without case, and unknown texts give the enumeration's default value (colour samples and colour spaces: the field keeps its value and an error is reported).", "quantifier": "every enumeration and every value; every text", "why_tests_cant": "About 400 enum/text pairs, compared case-insensitively by the reader; a swapped or duplicated text in one branch is easily missed.", "anchors": ["src/XmlFileHelper.cpp: ConvertPrimitiveType ... ConvertColorSample", "src/Include/GDTFPrefix.h, src/GDTFManager.h: XML_GDTF_* constants"]}
{"id": "C19", "title": "Transformation matrices survive writing and reading", "statement": "Writing a matrix in GDTF (4x4) or MVR (4x3) notation and reading it back gives the same axes and origin, given that each number survives printing; the two notations place the origin in the 4th column resp. the 4th row.", "quantifier": "every matrix of 12 numbers, every number printer/parser pair that is faithful", "why_tests_cant": "Swapped entries are invisible on symmetric or identity sample matrices.", "anchors": ["src/XmlFileHelper.cpp: GdtfConverter::ConvertMatrix, ConvertVector3, Deserialize", "src/Utility.cpp: GdtfUtil::ConvertMatrix"]}
{"id": "C20", "title": "MVR-xchange packets survive the wire", "statement": "Encoding a packet header and decoding it at the other end gives the same version, packet number, packet count, message type and body length, and the body is found unchanged; a packet whose magic number is wrong is refused.", "quantifier": "every header field value and every body", "why_tests_cant": "Six multi-byte big-endian fields; all byte values.", "anchors": ["src/mvrxchange/mvrxchange_message.cpp: EncodeHeader, DecodeHeader, SetBody, swap_endian"]}
{"id": "C21", "title": "Packet buffers never write outside their allocation", "statement": "No sequence of packet-building or packet-receiving operations writes beyond the memory the packet buffer owns, whatever length a peer announces.", "quantifier": "every sequence of operations and every announced body length", "why_tests_cant": "Heap overflows depend on exact sizes and histories.", "anchors": ["src/mvrxchange/mvrxchange_dynamic_buffer.cpp", "src/mvrxchange/mvrxchange_message.cpp: DecodeHeader", "src/mvrxchange/mvrxchange_client.cpp, mvrxchange_session.cpp"]}
{"id": "C22", "title": "The member list follows joins and leaves", "statement": "After any history of JOIN and LEAVE messages the group's member list contains a station iff its last message was a JOIN, and each station at most once.", "quantifier": "every finite history of messages from any stations", "why_tests_cant": "Histories are unbounded; interleavings of several stations.", "anchors": ["src/mvrxchange/CMVRxchangeService.cpp: TCP_OnIncommingMessage"]}
{"id": "C23", "title": "A message reaches exactly the other members", "statement": "Sending a message addressed to nobody in particular transmits it once to every other known station of the group and not to ourselves; addressing stations transmits to exactly those.", "quantifier": "every member list and every address list", "why_tests_cant": "All subsets of all member lists.", "anchors": ["src/mvrxchange/CMVRxchangeService.cpp: Send_message, GetMembersOfService, GetSingleMemberOfService"]}
{"id": "C24", "title": "Names are made valid and valid names are untouched", "statement": "Cleaning a name removes exactly the characters the GDTF name rules forbid, keeping the others in order; the result is valid, and cleaning again changes nothing.", "quantifier": "every string", "why_tests_cant": "Every string; the loop deletes while iterating.", "anchors": ["src/Utility.cpp: GdtfUtil::IsValidNameChar, DoesNameContainInvalidChars"]}
{"id": "C25", "title": "Channel sets read from a file are ordered and contiguous", "statement": "After reading a channel function with any list of channel-set start values, the channel sets kept have strictly increasing starts, each set ends right before the next one starts, and no start lies outside the channel's range because of repairs.", "quantifier": "every list of channel sets in any order, with duplicates, for virtual and real channels", "why_tests_cant": "The repair of colliding starts cascades over arbitrarily many sets.", "anchors": ["src/GDTFManager.cpp: GdtfDmxChannelFunction::OnReadFromNode, GdtfDmxChannelSet::SetNextChannelSet"]}
{"id": "C26", "title": "Gap filling covers the channel function exactly", "statement": "When a channel function with well-formed channel sets is written, the sets written cover every DMX value of the function's range exactly once; sets defined by the user keep their ranges and gaps receive unnamed sets; writing twice changes nothing.", "quantifier": "every list of disjoint channel sets in any order inside the function range", "why_tests_cant": "Arbitrary many sets with arbitrary gaps; off-by-one at each border.", "anchors": ["src/GDTFManager.cpp: GdtfDmxChannelFunction::OnPrintToFile"]}
{"id": "C27", "title": "Channel functions partition the channel", "statement": "The DMX ranges reported for the channel functions of a channel whose functions have increasing starts beginning at 0 are disjoint, ordered and cover 0..max; every DMX value belongs to exactly one function.", "quantifier": "every channel and every increasing list of function starts", "why_tests_cant": "All DMX values times all function lists.", "anchors": ["src/GDTFManager.cpp: GdtfDmxChannelFunction::GetStartAdress, GetEndAdress, GdtfDmxChannel::OnReadFromNode"]}
{"id": "C28", "title": "DMX footprint equals the span of the used addresses", "statement": "The footprint reported for a DMX break is the size of the smallest address block containing every address any channel (including channels instantiated through geometry references) uses in that break, and 0 when there is none.", "quantifier": "every fixture geometry tree with channels and references", "why_tests_cant": "Arbitrary trees and reference structure.", "anchors": ["src/GDTFManager.cpp: GdtfDmxMode::GetFootPrintForBreak, GetAddressesFromChannel"]}
{"id": "C29", "title": "The break list contains each used DMX break once, sorted", "statement": "The list of DMX breaks of a mode contains each break used by a channel of the mode's geometry exactly once in ascending order.", "quantifier": "every geometry tree, including shared and referenced geometry", "why_tests_cant": "Arbitrary trees.", "anchors": ["src/GDTFManager.cpp: GdtfDmxMode::GetBreakArray"]}
{"id": "C30", "title": "Large fixtures resolve references exactly like small ones", "statement": "Looking up an attribute, wheel, model, filter, emitter, ... by name gives the same element whether the fixture is small (scanned) or large (indexed), namely the first one with that name up to case.", "quantifier": "every list of elements and every name", "why_tests_cant": "The index is only built above a size threshold, so small tests never exercise it; duplicates up to case matter.", "anchors": ["src/GDTFManager.cpp: GdtfFixture::BuildLookupIndexes, get*ByRef; GdtfDmxMode::BuildModeIndexes, GetMasterByRef"]}
{"id": "C31", "title": "Geometry names resolve to the first geometry in document order", "statement": "Looking up a geometry by name returns the first geometry with that name in document (pre-)order over the whole geometry tree, indexed or not.", "quantifier": "every geometry forest and name", "why_tests_cant": "All trees.", "anchors": ["src/GDTFManager.cpp: GdtfFixture::ResolveGeometryRef, IndexGeometryTree"]}
{"id": "C32", "title": "Attribute checking reports exactly the missing and unexpected attributes", "statement": "For each XML node, the errors reported are exactly one 'missing' per mandatory attribute absent and one 'wrong attribute' per attribute that is neither mandatory nor optional.", "quantifier": "every attribute list and every mandatory/optional specification", "why_tests_cant": "Arbitrary sets, case-insensitive comparison.", "anchors": ["src/GdtfError.cpp: GdtfParsingError::CheckNodeAttributes"]}
{"id": "C33", "title": "Conflicting DMX ranges under a mode master are found", "statement": "Channel functions whose mode-master DMX ranges are missing or overlap are reported exactly when two of them can be active together.", "quantifier": "every list of mode-master ranges", "why_tests_cant": "Pairs of arbitrary ranges.", "anchors": ["src/GDTFManager.cpp: GdtfFixture::CheckForMissingModeMasters"]}
{"id": "C34", "title": "Duplicate channel detection does not depend on fixture size", "statement": "Two channels of one mode with the same geometry and attribute are reported as duplicates regardless of how many channels the mode has.", "quantifier": "every channel list", "why_tests_cant": "The code has two algorithms selected at 64 channels.", "anchors": ["src/GDTFManager.cpp: GdtfFixture::ResolveDmxLogicalChanRefs"]}
{"id": "C35", "title": "Matrix algebra: product, inverse and point transform agree", "statement": "Transforming a point by a product transforms by the first factor and then the second; an inverted matrix undoes the original whenever it is not singular; translate/scale/rotate Before/After equal multiplication with the corresponding matrix.", "quantifier": "every matrix and point in exact arithmetic", "why_tests_cant": "12-entry formulas where index swaps vanish on sample matrices.", "anchors": ["src/VWTransformMatrix.cpp: operator*=, Invert, PointTransform, InversePointTransform, TranslateBefore/After, RotateX/Y/Z Before/After, ScaleAfter"]}
{"id": "C36", "title": "Unicode text survives conversion between UTF-8, UTF-16 and UTF-32", "statement": "Encoding any sequence of Unicode scalar values as UTF-8 and importing it gives the corresponding UTF-16 string, and converting UTF-16 to UTF-32 and back gives the same string.", "quantifier": "every sequence of scalar values (1,112,064 code points, any length)", "why_tests_cant": "All sequences; surrogate handling only for supplementary characters.", "anchors": ["src/GSString.cpp: utf8BufferToTXCharBuffer, utf32ToTXCharBuffer, txCharBufferToUtf32Buffer"]}
{"id": "C37", "title": "Malformed UTF-8 is decoded without reading past the buffer", "statement": "Importing any byte buffer of given length never reads beyond the length and always produces a string.", "quantifier": "every byte buffer", "why_tests_cant": "Truncated sequences at the end of the buffer are rare in tests.", "anchors": ["src/GSString.cpp: utf8BufferToTXCharBuffer"]}
{"id": "C38", "title": "String replace, find, trim and slice behave as specified", "statement": "Find returns the first occurrence, Replace replaces all non-overlapping occurrences left to right, Trim removes exactly leading/trailing blanks, Left/Mid/Right return the expected slices, Insert/Delete are inverse, for all strings; every call terminates.", "quantifier": "every string, pattern and position", "why_tests_cant": "All strings; termination on degenerate patterns.", "anchors": ["src/GSString.cpp: Find, Replace, Trim, Left, Mid, Right, Insert, Delete, Split"]}
{"id": "C39", "title": "Splitting terminates and gives the pieces", "statement": "TXString::Split terminates on every string and its result joined by the separator is the original string.", "quantifier": "every string and separator", "why_tests_cant": "Infinite domain; non-termination cannot be shown by a test.", "anchors": ["src/GSString.cpp: TXString::Split"]}
{"id": "C40", "title": "Colour component setters and getters agree", "statement": "Setting a red, green or blue component and reading it back gives the value set.", "quantifier": "every component value", "why_tests_cant": "2^32 values per component.", "anchors": ["src/RGBColor.cpp: CRGBColor::SetRed, SetGreen, SetBlue, Get*"]}
{"id": "C41", "title": "References to channel functions resolve to the referenced function", "statement": "The reference text generated for a channel or a channel function ('channel.logical.function'), when looked up in the same mode, yields that very channel or function, provided names are unique and contain no dots.", "quantifier": "every mode", "why_tests_cant": "All name lists; both the indexed and the scanning path.", "anchors": ["src/GDTFManager.cpp: GdtfDmxMode::GetMasterByRef, GetNodeReference, ResolveDMXModeMasters"]}
{"id": "C42", "title": "MVR scenes survive writing and reading", "statement": "Writing a scene's layers, groups and objects and reading the file gives the same tree: same objects in the same order in the same containers with the same UUIDs and names; sibling iteration visits them in that order.", "quantifier": "every scene tree", "why_tests_cant": "Arbitrary nesting and sharing.", "anchors": ["src/SceneDataExchange.cpp: WriteXml, ReadFromGeneralSceneDescription, ReadChildObjs, ProcessLayer, SceneDataGroupObj::AddObject, PrintToFile"]}
{"id": "C43", "title": "Class assignment survives writing and reading an MVR", "statement": "An object that is assigned to a class when the MVR is written is assigned to the same class (UUID and name) after reading it.", "quantifier": "every scene", "why_tests_cant": "Every scene; not checked on round trip by samples.", "anchors": ["src/SceneDataExchange.cpp: WriteXml, CreateClassObject, ReadClassObject, ReadFromGeneralSceneDescription"]}
{"id": "C44", "title": "Duplicate object UUIDs in an MVR are detected", "statement": "Reading an MVR reports duplicated UUIDs exactly when two scene objects (not groups or layers) carry the same UUID.", "quantifier": "every scene", "why_tests_cant": "Every pair of positions in every tree.", "anchors": ["src/SceneDataExchange.cpp: ReadChildObjs, GetDuplicatedUuids"]}
{"id": "C45", "title": "Discovered services are listed once and only if they belong to the group", "statement": "The list of discovered MVR-xchange stations contains each station at most once and only stations offering the service.", "quantifier": "every set of mDNS answers", "why_tests_cant": "All answer sets.", "anchors": ["src/mvrxchange/CMVRxchangeService.cpp: mDNS_Filter_Queries, FilterServiceName, QueryLocalServices, GetLocalServiceAt"]}
{"id": "C46", "title": "Integers, breaks, optional integers and integer lists survive writing and reading", "statement": "A signed or unsigned integer, a DMX break, an optional integer or a list of integers that is written to text and read again is unchanged.", "quantifier": "every value and every list", "why_tests_cant": "All values of the type and lists of any length.", "anchors": ["src/XmlFileHelper.cpp: GdtfConverter::ConvertInteger, ConvertDMXBreak, ConvertIntegerArray, Deserialize"]}
{"id": "C47", "title": "Real numbers keep six decimals and then stay stable", "statement": "A real number that is written and read keeps its sign and six decimals; writing the read number gives the same text again, so repeated saving and loading does not drift; numbers with at most six decimals survive exactly. The same holds for each number in lists, 2D points, colours, colour lists and vectors, with their count and order.", "quantifier": "every double of magnitude up to 2^32, every list", "why_tests_cant": "All doubles; drift shows only for unlucky values.", "anchors": ["src/GSString.cpp: operator<<(double), atof", "src/XmlFileHelper.cpp: ConvertDoubleArray, ConvertColor, ConvertColorArray, ConvertVector3, Convert2DPoint, Deserialize"]}
{"id": "C48", "title": "RGB and CIE colours convert within range and back", "statement": "Every CIE colour converts to RGB components from 0 to 255; every RGB colour converts to a chromaticity in the unit triangle; converting an RGB colour to CIE and back gives the same colour; colour gradients stay between their ends.", "quantifier": "every colour, every percentage", "why_tests_cant": "256^3 colours, and real-valued CIE colours.", "anchors": ["src/CieColor.cpp: CCieColor(CRGBColor), GetRGBColor", "src/RGBColor.cpp: gradient constructor"]}
{"id": "C49", "title": "MVR-xchange messages are understood as they were sent", "statement": "Every join, leave, commit, request and answer an application sends is delivered to the peer's application with the same type, names, versions, UUIDs, commits and address list; a malformed message is refused with an error and does no harm.", "quantifier": "every message and every JSON payload a peer may send", "why_tests_cant": "Lists of any length, all field values, and arbitrary peer input.", "anchors": ["src/mvrxchange/mvrxchange_message.cpp: FromExternalMessage, ToExternalMessage, Internal_ToExternalMessage, MVR_COMMIT_ToJson, MVR_COMMIT_FromJson"]}
{"id": "C50", "title": "A station's announcement tells peers its name and UUID", "statement": "The TXT record a station announces is read by every peer as the station's name and UUID, and reading any TXT record ends.", "quantifier": "every station name and UUID, every TXT record", "why_tests_cant": "All names, including those with separators in them; termination for every record.", "anchors": ["src/mvrxchange/CMVRxchangeService.cpp: ConnectToLocalService, mDNS_Client_Task"]}
{"id": "C52", "title": "A description written by the library passes the library's own check", "statement": "When the library writes a description and reads it again, its attribute check reports nothing for any node that has the references it must have; otherwise it reports exactly the missing references.", "quantifier": "every kind of node of a description, every content of the object, every branch of the checks", "why_tests_cant": "All kinds of nodes with all combinations of optional attributes.", "anchors": ["src/GDTFManager.cpp: OnPrintToFile, OnErrorCheck of all objects", "src/GdtfError.cpp: CheckNodeAttributes"]}
{"id": "C53", "title": "Every attribute the library writes it reads back to the place it came from", "statement": "For every kind of node, each attribute that is written is read again from the same attribute with the matching conversion and stored where it was written from (references: in the text from which they are resolved).", "quantifier": "every kind of node, every content of the object", "why_tests_cant": "All kinds of nodes, all values, all combinations of optional attributes.", "anchors": ["src/GDTFManager.cpp: OnPrintToFile, OnReadFromNode of all objects"]}
{"id": "C51", "title": "Reading an archive writes files only below its working folder, one per entry", "statement": "When an MVR or GDTF archive is read, every file it contains is written inside the working folder, whatever the entry names are, and different entries are written to different files; entries with usual names keep their path.", "quantifier": "every entry name, every working folder", "why_tests_cant": "Entry names come from strangers; all texts with separators and dots.", "anchors": ["src/SceneDataExchange.cpp: SceneDataExchange::ReadFromFile", "src/GDTFManager.cpp: GdtfFixture::ImportFromZip", "src/Wrapper/FolderIdentifier.cpp", "src/Wrapper/FileIdentifier.cpp"]}
{"id": "C54", "title": "A fixture keeps its position and its focus point", "statement": "A fixture that is assigned to a position and a focus point of the scene is assigned to the same position (UUID and name) and the same focus point after the MVR is written and read; the positions of the scene are the same, in order.", "quantifier": "every scene, every assignment", "why_tests_cant": "All trees of objects, all assignments.", "anchors": ["src/SceneDataExchange.cpp: SceneDataFixtureObj::OnPrintToFile, OnReadFromNode, SceneDataExchange::ReadFromGeneralSceneDescription"]}
{"id": "C55", "title": "A multipatch object keeps its parent", "statement": "An object whose multipatch parent is set has the same multipatch parent after the MVR is written and read.", "quantifier": "every scene, every choice of parents", "why_tests_cant": "All trees and all orders of parents and children.", "anchors": ["src/SceneDataExchange.cpp: SceneDataObj::OnPrintToFile, OnReadFromNode, SceneDataExchange::GetSceneObjByUUID"]}
{"id": "C56", "title": "Symbols are resolved to their definitions whatever the file says", "statement": "After reading an MVR every symbol (of an object or inside of a symbol definition) has the definition it names; a symbol that names no definition has none and does no harm.", "quantifier": "every list of symbol definitions, every list of objects, every reference", "why_tests_cant": "References come from files of strangers; all combinations of valid and dangling references.", "anchors": ["src/SceneDataExchange.cpp: SceneDataExchange::ReadSymDefObject, ReadFromGeneralSceneDescription, SceneDataSymbolObj"]}
{"id": "C57", "title": "XML text written by the library reads back as the same tree", "statement": "A tree of elements, attributes and texts built with the XML interface and written to a buffer is read back from it as the same tree: the same names, attribute values, texts, children and order, whatever characters the values contain.", "quantifier": "every tree: all names, all values, all depths", "why_tests_cant": "All texts with special characters, entities and line ends; trees of every depth and width.", "anchors": ["src/rapidxmlsupport/XMLFileImpl.cpp: ReadBuffer, WriteBuffer", "src/rapidxmlsupport/XMLFileNodeImpl.cpp", "src/rapidxmlsupport/tinyxml2.cpp: XMLPrinter, XMLDocument::Parse, StrPair::GetStr"]}
{"id": "C58", "title": "Malformed or cut-off XML is reported", "statement": "A buffer that is not well-formed XML is refused: a file cut off at any byte, an element whose end tag has another name or is missing, an attribute given twice, text behind the root; what is accepted is decoded as XML demands.", "quantifier": "every buffer; every point of truncation of every written file", "why_tests_cant": "All byte sequences; every crash point while a file is written or transferred.", "anchors": ["src/rapidxmlsupport/XMLFileImpl.cpp: ReadBuffer", "src/rapidxmlsupport/tinyxml2.cpp: XMLNode::ParseDeep, XMLElement::ParseDeep, ParseAttributes, XMLUtil::GetCharacterRef, ConvertUTF32ToUTF8"]}
{"id": "C59", "title": "The text of an MVR scene description keeps the scene", "statement": "The scene read from the text of GeneralSceneDescription.xml is the scene that was written: the conversion to text and back changes nothing, for every tree of layers and objects with every name.", "quantifier": "every scene, every nesting depth, every name", "why_tests_cant": "All trees of objects and all names with special characters.", "anchors": ["src/SceneDataExchange.cpp: SceneDataExchange::WriteXml, ReadFromGeneralSceneDescription", "src/rapidxmlsupport/XMLFileImpl.cpp", "src/rapidxmlsupport/tinyxml2.cpp"]}
{"id": "C60", "title": "Every element that a count reports can be fetched, and nothing else", "statement": "For every pair of count and getter of the interface: an index below the count delivers the element at that place, in the order of insertion, and never another one; an index from the count on, and an object that is not initialised, yields an error and never touches memory.", "quantifier": "every class of the interface with numbered children, every number of children, every index, every history of additions", "why_tests_cant": "All indices of size_t, including the count itself, for all lengths.", "anchors": ["src/Implementation/*.cpp: all Get...Count and Get...At functions"]}
{"id": "C61", "title": "What is set through the interface is what the getter returns", "statement": "After a setter reported success, the getter of the same field returns the value that was set, and the getters of all other fields of the object return what they returned before. A setter that cannot store the value reports an error.", "quantifier": "every field of every class of the interface with a setter and a getter, every value, every state of the object", "why_tests_cant": "All values of all fields and all pairs of fields, in every state.", "anchors": ["src/Implementation/*.cpp: all Set... and Get... functions", "src/GDTFManager.cpp: Gdtf*::Set*, Gdtf*::Get*", "src/SceneDataExchange.cpp: SceneData*::Set*, Get*"]}
{"id": "C62", "title": "No object gets a name that GDTF forbids", "statement": "Whatever name is passed to a function of the interface that sets the name of a GDTF object or creates one, the object ends up with a name of allowed characters, and with exactly the name passed if that has allowed characters only.", "quantifier": "every setter and every creator with a name, every sequence of 16 bit units", "why_tests_cant": "All names of all lengths, for all of the functions.", "anchors": ["src/Implementation/*.cpp: SetName, Create*", "src/Utility.cpp: GdtfUtil::DoesNameContainInvalidChars"]}
{"id": "C63", "title": "A GDTF description keeps its tree of objects", "statement": "Writing a fixture type to its XML description and reading it back gives the same tree: every wheel, geometry, model, mode, channel, function, preset, macro, protocol and so on at its place, in its order and of its class, with the values its attributes stand for; nothing is lost, added or moved to another parent.", "quantifier": "every tree of objects that can be built through the interface, every depth of nesting of geometries, every number of children", "why_tests_cant": "Trees of every shape and depth over 76 classes; every combination of children.", "anchors": ["src/GDTFManager.cpp: GdtfObject::WriteToNode, GdtfObject::ReadFromNode, all OnPrintToFile, OnReadFromNode and GetNodeName", "src/XmlFileHelper.cpp: GdtfConverter::TraverseNodes, TraverseMultiNodes"]}
{"id": "C64", "title": "Unknown nodes and the order of sections do not change what is read", "statement": "A description with additional nodes of unknown names (of a newer version or of a vendor), at any place and with any content, is read as the one without them; the order of sections of different kinds does not matter.", "quantifier": "every description, every number of unknown nodes at every depth, every exchange of neighbouring sections", "why_tests_cant": "All places, contents and numbers of unknown nodes.", "anchors": ["src/GDTFManager.cpp: all OnReadFromNode", "src/XmlFileHelper.cpp: GdtfConverter::TraverseNodes, TraverseMultiNodes"]}
{"id": "C65", "title": "A scene keeps every value of every object", "statement": "A scene that is written and opened again has the same objects with the same values in every member (names, UUIDs, matrices, DMX addresses, colours, gobos, custom commands, alignments, overwrites, connections, mappings, protocols, sources, projections, user data), numbers up to six decimals, except that empty groups are dropped.", "quantifier": "every tree of scene objects with any values, any number of objects in every member and any depth", "why_tests_cant": "All combinations of values and members of 50 classes.", "anchors": ["src/SceneDataExchange.cpp: all OnPrintToFile, OnReadFromNode", "src/XmlFileHelper.cpp: GdtfConverter"]}
{"id": "C66", "title": "Whatever packet arrives from the network, handling it ends and reads only what was received", "statement": "A station in a group listens for multicast DNS packets, and a search reads the ones that arrive. For every sequence of bytes that arrives, handling the packet ends, reads nothing but the bytes received, and a packet that follows the DNS standard is understood as the standard says: its records, or the reply to its question, whatever was in the buffer before.", "quantifier": "every packet of every length, any former content of the receive buffer", "why_tests_cant": "All byte sequences, including names that refer to themselves and lengths beyond the packet.", "anchors": ["mdns_cpp/src/mdns.h: mdns_string_extract, mdns_string_skip, mdns_string_equal, mdns_records_parse, mdns_query_recv, mdns_socket_listen", "mdns_cpp/src/mdns.cpp: query_callback, service_callback"]}
{"id": "C67", "title": "A station that joins a group is found by the others with its own data", "statement": "After ConnectToLocalService with a group, station name and UUID, QueryLocalServices of another station on the network lists this station exactly once, in its group, with its name, UUID, port and addresses, whatever other stations answer, in any order and however often.", "quantifier": "every number of stations, every group, name and UUID, every order and repetition of answers", "why_tests_cant": "All names and groups (their lengths meet fixed buffers), all interleavings of the answers of any number of stations.", "anchors": ["src/mvrxchange/CMVRxchangeService.cpp: ConnectToLocalService, QueryLocalServices, mDNS_Client_Task, mDNS_Filter_Queries", "mdns_cpp/src/mdns.h: mdns_query_send, mdns_query_answer, mdns_query_recv", "mdns_cpp/src/mdns.cpp: executeQuery2, service_callback, query_callback"]}
{"id": "C68", "title": "All links between the elements of a fixture type survive saving", "statement": "In a fixture type with unique names, every link between its elements (attribute to activation group, feature and main attribute; wheel slot to filter; geometry to model, emitter or other geometry; mode and channel to geometry; logical channel and function to attribute, wheel, emitter, filter, colour space, gamut, DMX profile and mode master; channel to initial function; relations, macros and personalities) leads to the same element after writing and reading, and nothing is reported.", "quantifier": "every fixture type with any number of elements and links, including cycles of mode masters", "why_tests_cant": "All graphs of links over collections of any size, with the lookup by index in large collections and by search in small ones.", "anchors": ["src/GDTFManager.cpp: GdtfFixture::ResolveAllReferences and the Resolve functions it calls, getAttributeByRef, all OnPrintToFile with GetNodeReference"]}
{"id": "C69", "title": "Every link that leads nowhere is reported when a description is read", "statement": "After reading a description, the list of parsing errors has an entry for an element if and only if one of its links names an element that is not in the description (or lacks a link it must have); links that lead somewhere are never reported.", "quantifier": "every description, every combination of existing and missing elements", "why_tests_cant": "All combinations of missing elements and links.", "anchors": ["src/GDTFManager.cpp: GdtfFixture::ResolveAllReferences and the Resolve functions it calls, AddError", "src/Include/VectorworksMVR.h: IGdtfFixture::GetParsingError"]}
{"id": "C70", "title": "Reading any description and saving what was read never crashes", "statement": "Whatever links a well-formed description contains, resolving them has no undefined behaviour, and the fixture type that was read can be written again.", "quantifier": "every description, with links of any text", "why_tests_cant": "All combinations of missing elements; null pointers and changed arrays appear only in some.", "anchors": ["src/GDTFManager.cpp: GdtfFixture::ResolveAllReferences, ResolveAttribRefs, CreateNoFeatureAttribute, GdtfDmxChannel::GetName, GdtfMacroDMXValue::OnPrintToFile, GdtfMacroVisualValue::OnPrintToFile, GdtfDMXPersonality::OnPrintToFile"]}
{"id": "C71", "title": "Every call to the exchange service returns", "statement": "ConnectToLocalService, LeaveLocalService, Send_message, QueryLocalServices and GetServices return, messages that arrive are handled and searches end, however the threads of the application, of the server and of the search are scheduled and whatever messages arrive meanwhile; and none of them ends the program.", "quantifier": "every schedule of the three threads, every sequence of calls and of incoming messages, every behaviour of the callback", "why_tests_cant": "All interleavings at every mutex, condition variable, queue and join.", "anchors": ["src/mvrxchange/CMVRxchangeService.cpp: ConnectToLocalService, LeaveLocalService, QueryLocalServices, Send_message, TCP_OnIncommingMessage, mDNS_Client_Task, mDNS_Client_Start, mDNS_Client_Stop", "src/mvrxchange/mvrxchange_server.cpp: MVRxchangeServer::Start, Stop"]}
{"id": "C72", "title": "The network is searched again every 45 seconds", "statement": "While a service is joined, the network is searched again and again: a search is never forgotten, and the next periodic one begins not earlier than 45 seconds after the end of the one before, whatever other searches are asked for and however often the service is left and joined.", "quantifier": "every history of joining, timer events, searches and passing time", "why_tests_cant": "Histories of any length, in which timers and searches overlap.", "anchors": ["src/mvrxchange/CMVRxchangeService.cpp: mDNS_Client_Tick, mDNS_Client_Start, mDNS_Client_Stop"]}
{"id": "C73", "title": "Threads of the exchange service never touch the same data at the same time", "statement": "The group, the list of stations found, the announcements and the callback are never read or changed by one thread while another one changes them.", "quantifier": "every schedule of the three threads, every sequence of calls and of incoming messages", "why_tests_cant": "A data race shows only in some interleavings and then not always.", "anchors": ["src/mvrxchange/CMVRxchangeService.cpp: fMvrGroupMutex, fQueryLocalServicesResult_mtx, OnMessage, TCP_OnIncommingMessage"]}
{"id": "C74", "title": "Saving an archive is all or nothing", "statement": "While an archive is saved to a file (OpenNewWrite, AddFile, Close), the file holds at every moment either what it held before or the complete new archive, also if the process is killed or the power fails; when Close has reported success, the file holds the new archive for good.", "quantifier": "every archive within the limits of C30, every old content of the file, every moment at which the process is killed or the power fails, every behaviour of the operating system (refused open, full disk, late write-back)", "why_tests_cant": "A crash can hit between any two bytes; tests cannot stop the process at every point nor lose the cached part of a file.", "anchors": ["src/Wrapper/ZIPFileBuffer.cpp: CZIPFileBuffer Close, OpenRead", "src/Wrapper/RawOSFileimpl.cpp: CRawOSFileImpl Open, Close", "src/Wrapper/ZIPFileImpl.cpp: OpenNewWrite, AddFile, Close, GetNextFile"]}
{"id": "C75", "title": "Files change only by closing an archive opened for writing", "statement": "A file is changed only when an archive object that has opened it for writing is closed; then it holds exactly the files that were added. Opening for reading, and files the object has not opened, change nothing.", "quantifier": "every history of calls of one archive object (open for reading, from memory, for writing, anew; add, remove, close in any order), interleaved with changes of the files by other programs", "why_tests_cant": "Effects of an earlier call show only when the object is used again, in one of infinitely many orders.", "anchors": ["src/Wrapper/ZIPFileImpl.cpp: OpenRead, OpenWrite, OpenNewWrite, Close, AddFile, RemoveFile", "src/Wrapper/ZIPFileBuffer.cpp: SetFileID, Close"]}
{"id": "C76", "title": "Connected means reachable, left means silent", "statement": "When ConnectToLocalService has returned, the station can be found and every message and every due search is handled, until the next call that connects or leaves. Once LeaveLocalService has begun no new message is handled; when it has returned no message, callback or search happens any more and the station cannot be found, until it connects again.", "quantifier": "every schedule of the three threads, every sequence of calls, incoming messages and searches before, during and after the call", "why_tests_cant": "A message or a search can be under way at any moment of the call; tests see a few interleavings.", "anchors": ["src/mvrxchange/CMVRxchangeService.cpp: ConnectToLocalService, LeaveLocalService, TCP_Start, TCP_Stop, mDNS_Client_Start, mDNS_Client_Stop", "src/mvrxchange/mvrxchange_server.cpp"]}
{"id": "C77", "title": "An MVR file gives back what was put into it", "statement": "What an application adds to an MVR file before closing it \u2014 files, buffers, and the GDTF files of the scene from the folders it has named \u2014 is what a reader of the file lists, every item once and with the same content, next to the description of the scene; nothing else on the disk changes. Calls that cannot be honoured report it.", "quantifier": "every sequence of calls that add files, buffers and folders, every disk, every name and content, every later reader object in any state and any disk that still has the file", "why_tests_cant": "The names and contents of a package come from outside and their combinations are unbounded; losses show only when the file is read again, possibly by an object with a history.", "anchors": ["src/Implementation/CMediaRessourceVectorImpl.cpp: AddFileToMvrFile, AddBufferToMvrFile, AddGdtfFolderLocation, OpenForWrite, Close, OpenForRead, GetAttachedFileCount, GetAttachedFileCountAt", "src/SceneDataExchange.cpp: WriteToFile, ReadFromFile, AddNeededGdtfFile", "src/XmlFileHelper.cpp: SceneDataZip"]}
{"id": "C78", "title": "A GDTF file gives back the resources that were put into it", "statement": "Resources (meshes, symbols, wheel images, other files) that an application adds to a GDTF file before closing it, as files or as buffers, are what a reader of the file or of its bytes lists, each once, at the place for its kind and with the same content, next to the description as it was written; the file has the bytes the object hands out; nothing else on the disk changes. Calls that are not honoured report it.", "quantifier": "every sequence of calls that add files and buffers of all eleven kinds, every disk at the time of each call, every name and content, every state of the writing and the reading object, archives of any other program with the same entries", "why_tests_cant": "Names, contents and orders are unbounded, and what is lost shows only when the package is read again, possibly next to other objects that use the same working folder.", "anchors": ["src/Implementation/CGdtfFixture.cpp: OpenForWrite, AddFileToGdtfFile, AddBufferToGdtfFile, Close, ReadFromFile, FromBuffer, ToBuffer, GetImageRessourcesCount, GetImageRessourcesPathAt", "src/GDTFManager.cpp: GdtfFixture::ImportFromBuffer, PrepareWorkingFolder, ImportFromZip, ExportToFile, ~GdtfFixture", "src/XmlFileHelper.cpp: SceneDataZip::GetResourceSubFolder"]}
{"id": "C79", "title": "Writing a GDTF fixture again keeps its resources", "statement": "A fixture that has been read, or filled with resources, and is written to bytes again has the same resources as before, at the same places and with the same contents.", "quantifier": "every package with any resources, every order in which the program walks its map, every state of the objects that read", "why_tests_cant": "The set of resources of a fixture is unbounded; the loss of one kind of resource shows only for packages that have it.", "anchors": ["src/Implementation/CGdtfFixture.cpp: FromBuffer, RefreshBuffer, AddFileToGdtfFile, AddBufferToGdtfFile", "src/GDTFManager.cpp: GdtfFixture::ImportFromZip, ExportToFile"]}
{"id": "C80", "title": "A GDTF description keeps every value of every object", "statement": "Write any fixture description and read it: the object at every place has in every member that is written the value it had. Texts, names, integers, flags, choices, UUIDs, dates, addresses, offsets and channel values of every resolution are equal; decimal numbers, colours, vectors and matrices agree to half of the sixth decimal; a reference to another object is looked up with the text that stands for it; members that are left out because they are empty or zero are empty or zero again; a name may contain any character.", "quantifier": "all trees of objects of the 76 classes, all values of all members in the range of the format, all channel resolutions, all contents of the members before reading", "why_tests_cant": "There are 286 statements in 66 classes with 37 converters, and what a channel value means depends on the channel around it; tests check a few files.", "anchors": ["src/GDTFManager.cpp: OnPrintToFile, OnReadFromNode of all classes, GdtfDmxChannel::GetChannelBitResolution", "src/XmlFileHelper.cpp: GdtfConverter"]}
{"id": "C81", "title": "The bytes of a GDTF description bring the fixture back, and reading says so", "statement": "Write any fixture to bytes (or, through a GDTF file with any resources, to a disk) and read them with any other object: reading reports success, the version is the one that was written, and every object has its values (C80). Reading reports success only if the description could be read: not for one that is missing, cut off or not XML. The version of a fixture that was read is the version in its description. No text leads to an exception.", "quantifier": "all fixtures with any texts, any depth of objects, all bytes as descriptions, all places where a description can be cut off, all versions", "why_tests_cant": "A test reads complete files that a tool has written; it does not cut them at every byte, and its texts are mostly ASCII.", "anchors": ["src/GDTFManager.cpp: GdtfFixture::ExportToFile, GdtfFixture::ImportFromZip", "src/Implementation/CGdtfFixture.cpp: ReadFromFile, FromBuffer, GetGDTFVersion", "src/GSString.cpp: PrepareCharBuffer, SetStdUStrFromCharBuffer", "src/rapidxmlsupport/XMLFileNodeImpl.cpp"]}
{"id": "C82", "title": "The text of an MVR-xchange message brings the message back", "statement": "A message that is sent as text arrives as the same message: its text is JSON, and reading that text gives every field again, whatever characters the names contain. A message of another program is understood however its text is laid out: white space, comments, the order of the members and the escapes in texts do not matter. A text that is not JSON (apart from comments, a byte order mark in front and what follows a null byte) is refused.", "quantifier": "all messages of all types with all field contents, all JSON values of any depth, all ways to lay out a JSON text of a value, all bodies", "why_tests_cant": "The texts a peer writes cannot be enumerated: every layout, order and escape is allowed, and names come from users in any language.", "anchors": ["src/mvrxchange/mvrxchange_message.cpp: FromExternalMessage, ToExternalMessage", "src/mvrxchange/json.h: serializer::dump, dump_escaped, dump_integer, lexer::scan, scan_string, scan_number, parser::sax_parse_internal, json_sax_dom_parser"]}
{"id": "C83", "title": "A message between two stations arrives whole or not at all", "statement": "When one station sends a message and another answers, the application of the second gets exactly this message, once, and the application of the first gets exactly the answer, however the network cuts the bytes into pieces. A connection that breaks off, at any byte and in any direction, never brings a part of a message to an application: the sender hears nothing from that station and the other stations are not affected. Nothing a peer sends and no way it ends a connection ends the program.", "quantifier": "all messages and answers, all ways the network delivers the bytes of both directions in pieces, all points at which a connection ends, all lists of stations", "why_tests_cant": "The points at which TCP cuts or loses a stream are not under the control of a test, and depend on timing.", "anchors": ["src/mvrxchange/mvrxchange_session.cpp: MVRxchangeSession::DoRead, Deliver", "src/mvrxchange/mvrxchange_client.cpp: MVRxchangeClient::Connect, SendMessage, WriteMessage, ReadMessage", "src/mvrxchange/CMVRxchangeService.cpp: Send_message, SendMessageToLocalNetworks, TCP_OnIncommingMessage"]}
{"id": "C84", "title": "The library writes the notation of the GDTF standard", "statement": "In the description that the library writes for a fixture every object has one node, with the name the standard has for it, in the order of the objects and at a place where the standard allows it. A node has only attributes of the standard. The text of each attribute is the value that the program has set, in the notation of the standard for this attribute: a number with decimals is rounded to six of them, a matrix is written row by row with the position in the last column, a channel value with the number of bytes of its channel, an enumeration by its word, a UUID by its bytes in the usual order. So another program that knows the standard reads the values that were set.", "quantifier": "all trees of GDTF objects with all values of their members, at any depth", "why_tests_cant": "Round-trip tests do not see it when writing and reading make the same mistake; the correct texts can be listed only for a few values.", "anchors": ["src/GDTFManager.cpp: OnPrintToFile, GetNodeName of all classes", "src/XmlFileHelper.cpp: GdtfConverter"]}
{"id": "C85", "title": "An attribute that is not in the file has its default value", "statement": "If a GDTF description leaves an attribute out, or leaves it empty, the program gets the default value of the attribute: the one of the standard (an operating temperature up to 40, a colour temperature of 6000, a duration of 1, the unit matrix as position, white as colour, the first word of an enumeration, ...), an empty text, or zero. What is read depends only on the file: reading the same description twice gives the same objects with the same values, whatever the program did before.", "quantifier": "all descriptions, all attributes of all classes, all other attributes that are in the node or not, all contents of the memory before", "why_tests_cant": "A value that depends on the memory is mostly right in a test, and there are 286 attributes that can be left out, each in any combination with the others.", "anchors": ["src/GDTFManager.cpp: constructors and OnReadFromNode of all classes", "src/Include/GDTFManager.h", "src/XmlFileHelper.cpp: GdtfConverter"]}
{"id": "C86", "title": "A scene in an MVR file is read as it was written", "statement": "A scene with its user data, layers, objects, mapping definitions, positions and symbol definitions that is written to an MVR file, and read from it later by any object, is the scene that was written: the same objects with the same values in the same places (empty groups are dropped, numbers have six decimals), with the version of the file format and the program that has written it. An object that has opened a file holds the scene of this file. If the description in a file is damaged or is not the description of a scene, opening the file fails.", "quantifier": "all scenes, all files, buffers and GDTF files that are added to them, all objects that read the file with all files they have read before, all places at which a file can be cut off", "why_tests_cant": "The result depends on the whole scene and on the whole history of the object that reads; a test sees some scenes, mostly with new objects and files that are intact.", "anchors": ["src/SceneDataExchange.cpp: WriteXml, WriteToFile, ReadFromFile, ReadFromGeneralSceneDescription, InitializeForImport", "src/Implementation/CMediaRessourceVectorImpl.cpp: OpenForRead, Close, GetMVRVersion", "src/rapidxmlsupport/XMLFileImpl.cpp"]}
{"id": "C87", "title": "Scenes of other programs are read for what is known in them", "statement": "A description of a scene (MVR) that contains nodes or attributes this library does not know, anywhere in it, or has the known ones in another order, is read as the same scene as without them: the same objects with the same values. Only in lists of objects of different kinds the order counts. An object without a UUID in a layer or a group is left out with everything in it, and nothing else changes.", "quantifier": "all documents, all unknown nodes and attributes at any place, all orders, all states of the reading object", "why_tests_cant": "unknown contents may be anywhere, in any number and contain anything, also nodes with known names", "anchors": ["src/SceneDataExchange.cpp: ReadFromGeneralSceneDescription, ReadChildObjs, ProcessLayer, OnReadFromNode", "src/XmlFileHelper.cpp: GdtfConverter::TraverseNodes", "src/rapidxmlsupport/XMLFileNodeImpl.cpp: GetChildNode, GetNodeAttributeValue"]}
{"id": "C88", "title": "What is left out of a scene description has its default", "statement": "A value of an object of a scene whose attribute or node is not in the description is the default: zero, false, an empty text, a zero UUID, the identity matrix, white, the first value of an enumeration, an empty list; downwards for the direction of an alignment. It does not depend on anything else in the description nor on the memory.", "quantifier": "all classes of objects, all attributes, nodes and lists, all nodes in which they are missing, whatever else is in the node", "why_tests_cant": "any subset of about 90 attributes and nodes may be missing; a value that comes from the memory may be right in a test", "anchors": ["src/SceneDataExchange.cpp: OnReadFromNode and constructors of all classes", "src/SceneDataExchange.h"]}
{"id": "C89", "title": "The library writes the notation of the MVR standard", "statement": "In the description that the library writes for a scene every object has one node, with the name the standard has for it, in the order of the objects, within the node of the object around it and in the node that the standard has for collecting such objects. Only groups without objects and values that a reader has to assume anyway are left out. The text of each attribute and between the tags is the value that the program has set, in the notation of the standard: numbers with decimals are rounded to six of them, a matrix is four rows of three numbers with the position last, a colour is x, y and Y, a UUID is written by its bytes in the usual order. A node has nothing else. So another program that knows the standard reads the scene that was built.", "quantifier": "all trees of MVR objects with all values of their members, at any depth", "why_tests_cant": "Round-trip tests do not see it when writing and reading make the same mistake; the correct texts can be listed only for a few values.", "anchors": ["src/SceneDataExchange.cpp: OnPrintToFile and GetNodeName of all classes, SceneDataExchange::WriteXml", "src/XmlFileHelper.cpp: GdtfConverter"]}
{"id": "C90", "title": "A scene that was read can be saved and read again", "statement": "Whatever description a scene was read from (of any program, with unknown, missing or repeated nodes, with texts that are no numbers, matrices, colours or UUIDs), it can be saved again without a crash, and what is read from the saved description is the same scene: the same objects with the same values, up to groups that were empty and to the sixth decimal of numbers.", "quantifier": "all XML documents with numbers of reasonable size in which the few values without a default are given", "why_tests_cant": "Tests open well-formed files; there is no limit to the odd descriptions other programs write, and a value that was never assigned is seen only if memory happens to contain something odd.", "anchors": ["src/SceneDataExchange.cpp: OnReadFromNode, OnPrintToFile and the constructors of all classes", "src/XmlFileHelper.cpp: GdtfConverter"]}
{"id": "C91", "title": "A description in the standard's notation is read as what it says, in any spelling, and nothing in it is overlooked", "statement": "Wherever the MVR standard has a value, a text in its notation is read as the value it says, whoever wrote it: numbers with or without sign, point, leading or trailing zeros and spaces around them, words, flags and UUIDs in upper or lower case. Numbers are exact up to the precision of a double. A list has exactly the objects of the nodes at its place, in their order: none is overlooked and none is made up; where there can be only one node, the first is read.", "quantifier": "all documents, all nodes and attributes of the standard, all spellings of a value, lists of any length", "why_tests_cant": "Tests read files that the library wrote itself or a few samples; the spellings of other programs are unlimited.", "anchors": ["src/SceneDataExchange.cpp: OnReadFromNode of all classes", "src/XmlFileHelper.cpp: GdtfConverter"]}
{"id": "C92", "title": "A GDTF description in the standard's notation is read as what it says, in any spelling, and nothing in it is overlooked", "statement": "Every attribute that the GDTF standard has is read, and a text in its notation is read as the value it says, whoever wrote it: numbers with or without sign, point, leading or trailing zeros and spaces around them, words, flags and hexadecimal digits in upper or lower case, channel values with another number of bytes than the channel (repeated, or shifted with an s), addresses as a number or with a universe. Numbers with decimals are exact up to the precision of a double, all other values are exact. Each list of an object has exactly the objects of the nodes at its place, in their order; where there can be only one node, the first is read.", "quantifier": "all descriptions, all nodes and attributes of the standard, all spellings of a value, channels with one to four bytes, lists of any length and nesting of any depth", "why_tests_cant": "Tests read a few sample files; the spellings of other programs and the combinations of channel sizes and byte specifiers are unlimited.", "anchors": ["src/GDTFManager.cpp: OnReadFromNode of all classes", "src/XmlFileHelper.cpp: GdtfConverter", "src/XmlFileHelper.cpp:680-773 ConvertDMXValue"]}
{"id": "C93", "title": "A GDTF description that was read can be saved and read again without loss", "statement": "Whatever program wrote a GDTF description: when the library has read it, resolved its references and saves it, the saved description is read as the same fixture. Every object is in its place, none is lost and none appears; every value that is saved is the one that was read, up to the decimals that are not written; references are saved as the texts they are found by. It does not matter whether nodes or attributes were missing, unknown or repeated, or had texts that are no values of the format. Reading never leaves a member without a value that can be saved.", "quantifier": "all descriptions whose integers have at most nine digits (and so on for channel values and addresses), all results of resolving references, all contents of memory before the constructors, any number, order and depth of nodes", "why_tests_cant": "Tests save and read fixtures made through the API or a few files; what other programs leave out or write differently is unlimited, and so are the combinations.", "anchors": ["src/GDTFManager.cpp: OnReadFromNode, OnPrintToFile and the constructors of all classes", "src/XmlFileHelper.cpp: GdtfConverter"]}
{"id": "C94", "title": "A scene that is saved, read and saved again is the same text", "statement": "Saving a scene, reading the file and saving what was read gives the same file again, byte for byte: no digit of a number, no UUID, no order of objects or attributes changes, and nothing is left out the second time that was written the first time. So files can be compared, and a file does not drift however often it is opened and saved.", "quantifier": "all scenes with any objects at any depth, all numbers up to 2^32 with any number of decimals, all files read from other programs", "why_tests_cant": "Tests compare a few files; that rounding never moves a printed digit must hold for every double, and that the same nodes are written for every combination of objects.", "anchors": ["src/SceneDataExchange.cpp: OnPrintToFile and OnReadFromNode of all classes", "src/SceneDataExchange.cpp:1506-1525 SceneDataObjWithMatrix::OnPrintToFile", "src/XmlFileHelper.cpp: GdtfConverter"]}
{"id": "C95", "title": "A GDTF description that is saved, read and saved again is the same text", "statement": "Saving the description of a fixture type, reading it, resolving its references to what they named and saving it again gives the same nodes with the same attributes and the same texts: no digit of a number, no channel value, no order of objects changes, and no attribute that is written only under a condition is left out or added the second time.", "quantifier": "all descriptions with any objects at any depth, all values with numbers up to 2^32 and any number of decimals, all files read from other programs", "why_tests_cant": "Tests compare a few files; that rounding never moves a printed digit must hold for every double, and that the conditions under which attributes are written give the same answer after reading must hold for every combination of values.", "anchors": ["src/GDTFManager.cpp: OnPrintToFile and OnReadFromNode of all classes", "src/GDTFManager.cpp:1268-1296 GdtfWheelSlot::OnPrintToFile", "src/XmlFileHelper.cpp: GdtfConverter"]}
{"id": "C96", "title": "Channel functions that can be active at the same time are reported", "statement": "Reading a fixture type reports a parsing error if two functions of one logical channel can be active for the same DMX value and the same values of their mode masters, and reports none of these errors if no two functions can; whatever the order in which the functions are listed. For functions without mode masters this means: no error exactly if every function starts behind the one before it.", "quantifier": "all fixtures with any number of modes, channels and functions, all ranges, all mode masters and all values of these", "why_tests_cant": "The errors depend on the ranges of all pairs of functions and on the order in which they are compared; tests list a few.", "anchors": ["src/GDTFManager.cpp:9297-9372 GdtfFixture::CheckForMissingModeMasters", "src/GDTFManager.cpp:6503-6520 GdtfDmxChannelFunction::GetStartAdress, GetEndAdress", "src/GDTFManager.cpp:8502-8512 GdtfFixture::ResolveAllReferences"]}
{"id": "C97", "title": "A feature or an activation group lists exactly the attributes that have it", "statement": "After any sequence of calls that give attributes a feature or an activation group, and after reading any fixture, every feature and every activation group lists (by count and index) exactly the attributes whose feature or activation group it is, each one once; in the order of the file for a fixture that was read.", "quantifier": "all histories of calls, all fixtures that are read, all attributes and targets", "why_tests_cant": "The lists are kept beside the pointers, so that they agree must hold after every history of calls; tests make a few.", "anchors": ["src/GDTFManager.cpp:595-602 GdtfAttribute::SetActivationGroup", "src/GDTFManager.cpp:754-761 GdtfAttribute::SetFeature", "src/GDTFManager.cpp:8672-8721 GdtfFixture::ResolveAttribRefs", "src/Implementation/CGdtfAttribute.cpp:196-236 SetActivationGroup, SetFeature", "src/Implementation/CGdtfFeature.cpp:71-89 GetAttributeCount, GetAttributeAt"]}
{"id": "C98", "title": "A file that is asked for arrives, and the memory that carries it is released once", "statement": "When a station asks for a file and the application of the other station answers with a buffer or with the path of a file, the application that asked is given exactly these bytes. The buffer is used if both are given. However many messages are exchanged, no buffer is released twice, none is used after it was released, and none is left over.", "quantifier": "all sequences of packets that arrive, all answers of the application, all contents of memory and disk, all answers that come back", "why_tests_cant": "Who releases a buffer shows only over histories: the first use of memory that was released often works, and a leak is not an output. Tests answer a few requests and see the right bytes.", "anchors": ["src/mvrxchange/mvrxchange_message.cpp:276-297 MVRxchangePacket::FromExternalMessage", "src/mvrxchange/mvrxchange_message.cpp:481-489 MVRxchangePacket::ToExternalMessage", "src/mvrxchange/mvrxchange_session.cpp:37-52 MVRxchangeSession::DoRead", "src/mvrxchange/CMVRxchangeService.cpp:234-277 CMVRxchangeServiceImpl::Send_message", "src/Wrapper/RawOSFileimpl.cpp:81-99 CRawOSFileImpl::Read", "src/Include/IMediaRessourceVectorInterface.h:1981-1985 IMVRxchangeMessage"]}
{"id": "C99", "title": "Cancelling the reading of an MVR file", "statement": "An application can register a function that is asked during reading whether to give up. As long as it says no, the document is what it would be without the function. Once it says yes, nothing more is read: the document holds a beginning of the file in the order of the file, each object at its place, with its links looked up, and the application is told that reading was given up. The function is asked for the document it was registered on, and can be taken away.", "quantifier": "all files (trees of any size and depth), all sequences of answers, all histories of registrations on any number of documents", "why_tests_cant": "The answer may change at each of the questions, of which there are about two per object: a test stops at a few places, most often with a function that says yes from then on. That the function belongs to the process shows only when several documents are used.", "anchors": ["src/SceneDataExchange.cpp:3792-4027 SceneDataExchange::ReadFromGeneralSceneDescription", "src/SceneDataExchange.cpp:4029-4126 ProcessLayer, ReadChildObjs, ProcessGroup", "src/SceneDataExchange.cpp:4171-4197 SetAbortCallback, GetAbortCallback, CheckAbort", "src/Implementation/CMediaRessourceVectorImpl.cpp:999-1023 OpenForRead", "src/Implementation/CMediaRessourceVectorImpl.cpp:1524-1531 SetAbortCallback"]}
{"id": "C100", "title": "Cancelling the reading of files has no effect on questions about a fixture", "statement": "The function that an application registers to cancel the reading of files is about reading: the footprint of a break of a mode is the same whatever that function says.", "quantifier": "all geometry trees, references, channels and breaks, all sequences of answers, any number of questions asked before", "why_tests_cant": "The registered function and the question about the footprint have nothing to do with each other for a user; the effect shows only when a reading was cancelled earlier in the same process, on any object.", "anchors": ["src/GDTFManager.cpp:5268-5424 GdtfDmxMode::GetFootPrintForBreak", "src/GDTFManager.cpp:86-106 GdtfObject::SetAbortCallback, CheckAbort", "src/Implementation/CGdtfDmxMode.cpp:477-481 GetFootprintForBreak"]}
