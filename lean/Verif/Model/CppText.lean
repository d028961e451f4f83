import Verif.Model.Basic
/-!
# The text of the C++ files

The lines of the files that declare the classes and the constants and of those with the bodies of the functions, one string each, exactly as they are in the repository
(`tools/compare_text.py` compares them).
-/

namespace Mammon.Cpp.Text

/-- The lines of common/slot.hpp:1-78. -/
def slot : List String := [
"/*  slot.hpp",
" *",
" *  This file is part of Mammon.",
" *  mammon is a greedy and selfish ETH consensus client.",
" *",
" *  Copyright (c) 2021 - Reimundo Heluani (potuz) potuz@potuz.net",
" *",
" *  This program is free software: you can redistribute it and/or modify",
" *  it under the terms of the GNU General Public License as published by",
" *  the Free Software Foundation, either version 3 of the License, or",
" *  (at your option) any later version.",
" *",
" *  This program is distributed in the hope that it will be useful,",
" *  but WITHOUT ANY WARRANTY; without even the implied warranty of",
" *  MERCHANTABILITY or FITNESS FOR A PARTICULAR PURPOSE.  See the",
" *  GNU General Public License for more details.",
" *",
" *  You should have received a copy of the GNU General Public License",
" *  along with this program.  If not, see <http://www.gnu.org/licenses/>.",
" */",
"",
"#pragma once",
"",
"#include <cstdint>",
"",
"#include \"bytes.hpp\"",
"#include \"helpers/bytes_to_int.hpp\"",
"#include \"ssz/ssz_container.hpp\"",
"#include \"yaml-cpp/yaml.h\"",
"",
"namespace eth {",
"class Slot : public ssz::Container {",
"   private:",
"    std::uint64_t value_;",
"",
"   public:",
"    constexpr Slot(std::uint64_t s = 0) : value_{s} {};",
"    constexpr ~Slot(){};",
"    constexpr Slot(const Slot&) = default;",
"    constexpr Slot(Slot&&) = default;",
"    constexpr Slot& operator=(const Slot&) = default;",
"    constexpr Slot& operator=(Slot&&) = default;",
"",
"    operator std::uint64_t() const { return value_; };",
"    operator std::uint64_t&() { return value_; }",
"    operator Bytes8() const { return Bytes8{value_}; }",
"",
"    std::vector<ssz::Chunk> hash_tree() const override {",
"        ssz::Chunk chunk{};",
"        std::memcpy(chunk.begin(), &value_, ssz_size);",
"        if constexpr (std::endian::native == std::endian::big) std::reverse(chunk.begin(), chunk.begin() + ssz_size);",
"        return {chunk};",
"    }",
"",
"    std::vector<std::uint8_t> serialize() const override { return Bytes8(value_).serialize(); }",
"    bool deserialize(ssz::SSZIterator it, ssz::SSZIterator end) override {",
"        if (std::distance(it, end) != sizeof(value_)) return false;",
"        value_ = helpers::to_integer_little_endian<std::uint64_t>(&*it);",
"        return true;",
"    }",
"",
"    bool operator==(const Slot&) const = default;",
"    static constexpr std::size_t ssz_size = 8;",
"    constexpr std::size_t get_ssz_size() const override { return ssz_size; }",
"",
"    YAML::Node encode() const override { return YAML::convert<std::uint64_t>::encode(value_); }",
"    bool decode(const YAML::Node& node) override { return YAML::convert<std::uint64_t>::decode(node, value_); }",
"};",
"",
"using Epoch = Slot;",
"using Counter = Slot;",
"using UnixTime = Slot;",
"using CommitteeIndex = Slot;",
"using ValidatorIndex = Slot;",
"using DepositIndex = Slot;",
"using Gwei = Slot;",
"",
"}  // namespace eth"]

/-- The lines of common/boolean.hpp:1-58. -/
def boolean : List String := [
"/*  boolean.hpp",
" *",
" *  This file is part of Mammon.",
" *  mammon is a greedy and selfish ETH consensus client.",
" *",
" *  Copyright (c) 2021 - Reimundo Heluani (potuz) potuz@potuz.net",
" *",
" *  This program is free software: you can redistribute it and/or modify",
" *  it under the terms of the GNU General Public License as published by",
" *  the Free Software Foundation, either version 3 of the License, or",
" *  (at your option) any later version.",
" *",
" *  This program is distributed in the hope that it will be useful,",
" *  but WITHOUT ANY WARRANTY; without even the implied warranty of",
" *  MERCHANTABILITY or FITNESS FOR A PARTICULAR PURPOSE.  See the",
" *  GNU General Public License for more details.",
" *",
" *  You should have received a copy of the GNU General Public License",
" *  along with this program.  If not, see <http://www.gnu.org/licenses/>.",
" */",
"",
"#pragma once",
"",
"#include <cstdint>",
"",
"#include \"common/bytes.hpp\"",
"#include \"helpers/bytes_to_int.hpp\"",
"#include \"ssz/ssz_container.hpp\"",
"#include \"yaml-cpp/yaml.h\"",
"",
"namespace eth {",
"class Boolean : public ssz::Container {",
"   private:",
"    bool value_;",
"",
"   public:",
"    Boolean(bool s = false) : value_{s} {};",
"    operator bool() const { return value_; };",
"    operator bool &() { return value_; }",
"    operator Bytes1() const { return Bytes1{std::uint8_t(value_)}; }",
"    std::vector<std::uint8_t> serialize() const override { return Bytes1(value_).serialize(); }",
"    bool deserialize(ssz::SSZIterator it, ssz::SSZIterator end) override {",
"        if (std::distance(it, end) != 1) return false;",
"        auto muint = helpers::to_integer_little_endian<std::uint8_t>(&*it);",
"        if (muint > 1) return false;",
"        value_ = bool(muint);",
"        return true;",
"    }",
"",
"    bool operator==(const Boolean &) const = default;",
"",
"    static constexpr std::size_t ssz_size = 1;",
"    std::size_t get_ssz_size() const override { return ssz_size; }",
"",
"    YAML::Node encode() const override { return YAML::convert<bool>::encode(value_); }",
"    bool decode(const YAML::Node &node) override { return YAML::convert<bool>::decode(node, value_); }",
"};",
"}  // namespace eth"]

/-- The lines of common/bytes.hpp:1-183. -/
def bytes : List String := [
"/*  bytes.hpp",
" *",
" *  This file is part of Mammon.",
" *  mammon is a greedy and selfish ETH consensus client.",
" *",
" *  Copyright (c) 2021 - Reimundo Heluani (potuz) potuz@potuz.net",
" *",
" *  This program is free software: you can redistribute it and/or modify",
" *  it under the terms of the GNU General Public License as published by",
" *  the Free Software Foundation, either version 3 of the License, or",
" *  (at your option) any later version.",
" *",
" *  This program is distributed in the hope that it will be useful,",
" *  but WITHOUT ANY WARRANTY; without even the implied warranty of",
" *  MERCHANTABILITY or FITNESS FOR A PARTICULAR PURPOSE.  See the",
" *  GNU General Public License for more details.",
" *",
" *  You should have received a copy of the GNU General Public License",
" *  along with this program.  If not, see <http://www.gnu.org/licenses/>.",
" */",
"",
"#pragma once",
"",
"#include <array>",
"#include <bit>",
"#include <concepts>",
"#include <cstddef>",
"#include <cstring>",
"#include <iostream>",
"#include <stdexcept>",
"#include <vector>",
"",
"#include \"helpers/bytes_to_int.hpp\"",
"#include \"helpers/bytes_to_string.hpp\"",
"#include \"ssz/ssz_container.hpp\"",
"#include \"yaml-cpp/yaml.h\"",
"",
"namespace eth {",
"template <std::size_t N>",
"class Bytes : public ssz::Container {",
"   private:",
"    std::array<std::uint8_t, N> m_arr;",
"",
"    // cppcheck-suppress unusedPrivateFunction",
"    static constexpr auto bytes_from_int(const std::integral auto value) {",
"        std::array<std::uint8_t, N> ret{};",
"        auto as_bytes = std::bit_cast<std::array<std::uint8_t, sizeof(value)>>(value);",
"        if constexpr (std::endian::native == std::endian::big)",
"            std::reverse_copy(as_bytes.begin(), as_bytes.end(), ret.begin());",
"        else",
"            std::copy(as_bytes.begin(), as_bytes.end(), ret.begin());",
"        return ret;",
"    }",
"",
"    static constexpr auto chars_to_byte(std::string_view const &c) -> std::uint8_t {",
"        return std::uint8_t(helpers::strhex2int(c));",
"    }",
"",
"    static constexpr auto bytes_from_str(const std::string_view &str) -> std::array<std::uint8_t, N> {",
"        if (!str.starts_with(\"0x\")) throw std::invalid_argument(\"string not prepended with 0x\");",
"",
"        if (str.size() > 2 * N + 2) throw std::out_of_range(\"integer larger than bytes size\");",
"",
"        std::array<std::uint8_t, N> ret_arr{};",
"        for (int i = 2; i < str.size(); i += 2) ret_arr[i / 2 - 1] = chars_to_byte(str.substr(i, 2));",
"        return ret_arr;",
"    }",
"",
"   public:",
"    constexpr Bytes() : m_arr{} {};",
"    explicit constexpr Bytes(const std::string_view &hex) : m_arr{bytes_from_str(hex)} {};",
"    explicit constexpr Bytes(std::string_view &&hex) : m_arr{bytes_from_str(std::forward<std::string_view>(hex))} {};",
"    explicit constexpr Bytes(const std::integral auto value) requires(sizeof(value) <= N)",
"        : m_arr{bytes_from_int(value)} {};",
"    explicit constexpr Bytes(std::array<std::uint8_t, N> arr) : m_arr{arr} {};",
"    constexpr ~Bytes() = default;",
"",
"    std::vector<std::uint8_t> serialize() const override {",
"        std::vector<std::uint8_t> ret(m_arr.cbegin(), m_arr.cend());",
"        return ret;",
"    }",
"",
"    bool deserialize(ssz::SSZIterator it, ssz::SSZIterator end) override {",
"        if (std::distance(it, end) != N) return false;",
"        std::copy(it, end, m_arr.begin());",
"        return true;",
"    }",
"",
"    operator std::vector<std::uint8_t>() {",
"        std::vector<std::uint8_t> ret(m_arr.begin(), m_arr.end());",
"        return ret;",
"    }",
"",
"    constexpr std::uint8_t *data() noexcept { return m_arr.data(); }",
"",
"    const std::array<std::uint8_t, N> &to_array() const { return m_arr; }",
"",
"    std::string to_string() const {",
"        return helpers::bytes_to_string(m_arr);",
"    };",
"",
"    void from_string(const std::string &hex) { m_arr = bytes_from_str(hex); }",
"",
"    // clang-format off",
"    template <typename T> requires(std::unsigned_integral<T> && sizeof(T) == N)",
"    T to_integer_little_endian() const {",
"    auto ptr = reinterpret_cast<const T *>(m_arr.data()); // NOLINT",
"    return *ptr;",
"    }",
"    // clang-format on",
"    constexpr std::uint8_t &operator[](std::size_t index) { return m_arr[index]; }",
"",
"    constexpr std::uint8_t operator[](std::size_t index) const { return m_arr[index]; }",
"",
"    void operator^=(Bytes<N> const &b) {",
"        for (int i = 0; i < N; i++) m_arr[i] ^= b[i];",
"    }",
"",
"    template <std::size_t M>",
"    constexpr bool operator==(Bytes<M> const &r) const {",
"        if (N != M) return false;",
"        return m_arr == r.to_array();",
"    }",
"",
"    constexpr bool operator==(std::vector<std::uint8_t> const &r) const {",
"        if (N != r.size()) return false;",
"        for (int i = 0; i < N; ++i)",
"            if (m_arr[i] != r[i]) return false;",
"        return true;",
"    }",
"",
"    template <std::size_t M>",
"    Bytes<N + M> operator+(Bytes<M> const &r) const {",
"        std::array<std::uint8_t, N + M> ret;",
"        std::copy(m_arr.cbegin(), m_arr.cend(), ret.begin());",
"        std::copy(r.to_array().cbegin(), r.to_array().cend(), ret.begin() + N);",
"        return Bytes<N + M>(ret);",
"    }",
"",
"    static constexpr std::size_t ssz_size = N;",
"    static constexpr std::size_t size() { return N; }",
"    constexpr std::size_t get_ssz_size() const override { return N; }",
"",
"    constexpr typename std::array<std::uint8_t, N>::iterator begin() noexcept { return m_arr.begin(); }",
"",
"    constexpr typename std::array<std::uint8_t, N>::const_iterator cbegin() const noexcept { return m_arr.cbegin(); }",
"",
"    constexpr typename std::array<std::uint8_t, N>::iterator end() noexcept { return m_arr.end(); }",
"",
"    constexpr typename std::array<std::uint8_t, N>::const_iterator cend() const noexcept { return m_arr.cend(); }",
"",
"    YAML::Node encode() const override {",
"        auto str = this->to_string();",
"        return YAML::convert<std::string>::encode(str);",
"    }",
"    bool decode(const YAML::Node &node) override {",
"        std::string str;",
"        if (!YAML::convert<std::string>::decode(node, str)) return false;",
"        this->from_string(str);",
"        return true;",
"    }",
"};",
"",
"using Bytes1 = Bytes<1>;",
"using Bytes4 = Bytes<4>;    // NOLINT",
"using Bytes8 = Bytes<8>;    // NOLINT",
"using Bytes20 = Bytes<20>;  // NOLINT",
"using Bytes32 = Bytes<32>;  // NOLINT",
"using Bytes48 = Bytes<48>;  // NOLINT",
"using Bytes96 = Bytes<96>;  // NOLINT",
"using BytesVector = std::vector<std::uint8_t>;",
"",
"using Hash32 = Bytes32;",
"using Root = Bytes32;",
"using Version = Bytes4;",
"using DomainType = Bytes4;",
"using ForkDigest = Bytes4;",
"using Domain = Bytes32;",
"using BLSPubkey = Bytes48;",
"using BLSSignature = Bytes96;",
"using Eth1Address = Bytes20;",
"",
"}  // namespace eth"]

/-- The lines of common/containers.hpp:1-329. -/
def containers : List String := [
"/*  containers.hpp",
" *",
" *  This file is part of Mammon.",
" *  mammon is a greedy and selfish ETH consensus client.",
" *",
" *  Copyright (c) 2021 - Reimundo Heluani (potuz) potuz@potuz.net",
" *",
" *  This program is free software: you can redistribute it and/or modify",
" *  it under the terms of the GNU General Public License as published by",
" *  the Free Software Foundation, either version 3 of the License, or",
" *  (at your option) any later version.",
" *",
" *  This program is distributed in the hope that it will be useful,",
" *  but WITHOUT ANY WARRANTY; without even the implied warranty of",
" *  MERCHANTABILITY or FITNESS FOR A PARTICULAR PURPOSE.  See the",
" *  GNU General Public License for more details.",
" *",
" *  You should have received a copy of the GNU General Public License",
" *  along with this program.  If not, see <http://www.gnu.org/licenses/>.",
" */",
"",
"#pragma once",
"#include <cmath>",
"#include <cstddef>",
"#include <cstdint>",
"#include <iterator>",
"",
"#include \"common/slot.hpp\"",
"#include \"ssz/hashtree.hpp\"",
"#include \"ssz/ssz.hpp\"",
"#include \"ssz/ssz_container.hpp\"",
"#include \"yaml-cpp/yaml.h\"",
"",
"namespace eth",
"",
"{",
"template <class T>",
"concept BasicObject = std::unsigned_integral<T> || std::is_same_v<T, Slot>;",
"",
"template <class T, std::size_t N>",
"class VectorFixedSizedParts : public ssz::Container {",
"   private:",
"    std::array<T, N> m_arr;",
"",
"   protected:",
"    std::vector<ssz::Chunk> hash_tree_x() const requires BasicObject<T> { return ssz::Container::hash_tree(); }",
"",
"    std::vector<ssz::Chunk> hash_tree_x() const requires(!BasicObject<T>) {",
"        std::vector<ssz::Chunk> chunks{};",
"        chunks.reserve(m_arr.size());",
"        for (auto &part : m_arr) chunks.push_back(part.hash_tree_root());",
"        // return early if only one chunk",
"        if (N == 1) return chunks;",
"",
"        ssz::HashTree ht{chunks};",
"        return ht.hash_tree();",
"    }",
"",
"    std::vector<ssz::Chunk> hash_tree() const override { return hash_tree_x(); }",
"",
"   public:",
"    static constexpr std::size_t ssz_size = N * T::ssz_size;",
"    std::size_t get_ssz_size() const override { return ssz_size; }",
"",
"    static std::size_t size(void) { return N; }",
"",
"    constexpr typename std::array<T, N>::iterator begin() noexcept { return m_arr.begin(); }",
"",
"    constexpr typename std::array<T, N>::const_iterator cbegin() const noexcept { return m_arr.cbegin(); }",
"",
"    constexpr typename std::array<T, N>::iterator end() noexcept { return m_arr.end(); }",
"",
"    constexpr typename std::array<T, N>::const_iterator cend() const noexcept { return m_arr.cend(); }",
"",
"    BytesVector serialize() const override {",
"        BytesVector ret;",
"        for (auto part : m_arr) {",
"            auto part_ssz = part.serialize();",
"            ret.insert(ret.end(), part_ssz.begin(), part_ssz.end());",
"        }",
"        return ret;",
"    }",
"",
"    bool deserialize(ssz::SSZIterator it, ssz::SSZIterator end) override {",
"        if (std::distance(it, end) != ssz_size) return false;",
"",
"        for (int i = 0; i < N; ++i)",
"            if (!m_arr[i].deserialize(it + i * T::ssz_size, it + (i + 1) * T::ssz_size)) return false;",
"        return true;",
"    }",
"",
"    YAML::Node encode() const override { return YAML::convert<std::array<T, N>>::encode(m_arr); }",
"    bool decode(const YAML::Node &node) override { return YAML::convert<std::array<T, N>>::decode(node, m_arr); }",
"};",
"",
"template <class T>",
"class ListFixedSizedParts : public ssz::Container {",
"   private:",
"    std::vector<T> m_arr;",
"    std::size_t limit_;",
"",
"   protected:",
"    std::vector<ssz::Chunk> hash_tree_x() const requires BasicObject<T> {",
"        auto ser = this->serialize();",
"        auto limit = (limit_ * T::ssz_size + constants::BYTES_PER_CHUNK - 1) / constants::BYTES_PER_CHUNK;",
"        ssz::HashTree ht{ser, limit};",
"        ht.mix_in(m_arr.size());",
"        return ht.hash_tree();",
"    }",
"    std::vector<ssz::Chunk> hash_tree_x() const requires(!BasicObject<T>) {",
"        std::vector<ssz::Chunk> chunks{};",
"        chunks.reserve(m_arr.size());",
"        for (auto &part : m_arr) chunks.push_back(part.hash_tree_root());",
"        if (chunks.empty()) {",
"            ssz::Chunk chunk{};",
"            chunks.push_back(chunk);",
"        }",
"        ssz::HashTree ht{chunks, limit_};",
"        ht.mix_in(m_arr.size());",
"        return ht.hash_tree();",
"    }",
"    std::vector<ssz::Chunk> hash_tree() const override { return hash_tree_x(); }",
"",
"   public:",
"    ListFixedSizedParts(std::size_t limit = 0) : limit_{limit} {};",
"    std::size_t size(void) const { return m_arr.size(); }",
"",
"    constexpr typename std::vector<T>::iterator begin() noexcept { return m_arr.begin(); }",
"    constexpr typename std::vector<T>::const_iterator cbegin() const noexcept { return m_arr.cbegin(); }",
"    constexpr typename std::vector<T>::iterator end() noexcept { return m_arr.end(); }",
"    constexpr typename std::vector<T>::const_iterator cend() const noexcept { return m_arr.cend(); }",
"    std::vector<T>& data() { return m_arr; }",
"",
"    void limit(std::size_t limit) { limit_ = limit; }",
"",
"    BytesVector serialize() const override {",
"        BytesVector ret;",
"        for (auto part : m_arr) {",
"            auto part_ssz = part.serialize();",
"            ret.insert(ret.end(), part_ssz.begin(), part_ssz.end());",
"        }",
"        return ret;",
"    }",
"",
"    bool deserialize(ssz::SSZIterator it, ssz::SSZIterator end) override {",
"        m_arr.clear();",
"        if (std::distance(it, end) % T::ssz_size) return false;",
"",
"        for (auto i = it; i != end; i += T::ssz_size) {",
"            T obj;",
"            if (!obj.deserialize(i, i + T::ssz_size)) return false;",
"            m_arr.push_back(obj);",
"        }",
"        return true;",
"    }",
"    YAML::Node encode() const override { return YAML::convert<std::vector<T>>::encode(m_arr); }",
"    bool decode(const YAML::Node &node) override { return YAML::convert<std::vector<T>>::decode(node, m_arr); }",
"};",
"",
"template <class T>",
"class ListVariableSizedParts : public ssz::Container {",
"   private:",
"    std::vector<T> m_arr;",
"    std::size_t limit_;",
"",
"   public:",
"    ListVariableSizedParts(std::size_t limit = 0) : limit_{limit} {};",
"",
"    std::size_t size(void) const { return m_arr.size(); }",
"    constexpr typename std::vector<T>::iterator begin() noexcept { return m_arr.begin(); }",
"    constexpr typename std::vector<T>::const_iterator cbegin() const noexcept { return m_arr.cbegin(); }",
"    constexpr typename std::vector<T>::iterator end() noexcept { return m_arr.end(); }",
"    constexpr typename std::vector<T>::const_iterator cend() const noexcept { return m_arr.cend(); }",
"    std::vector<ssz::Chunk> hash_tree() const override {",
"        std::vector<ssz::Chunk> chunks{};",
"        chunks.reserve(m_arr.size());",
"        std::transform(m_arr.begin(), m_arr.end(), std::back_inserter(chunks),",
"                       [](const T &part) { return part.hash_tree_root(); });",
"        if (chunks.empty()) {",
"            ssz::Chunk chunk{};",
"            chunks.push_back(chunk);",
"        }",
"        ssz::HashTree ht{chunks, limit_};",
"        ht.mix_in(m_arr.size());",
"        return ht.hash_tree();",
"    }",
"    BytesVector serialize() const override {",
"        BytesVector offsets, ret;",
"        std::uint32_t offset = size() * constants::BYTES_PER_LENGTH_OFFSET;",
"        for (auto part : m_arr) {",
"            auto offset_ssz = Bytes4(offset).serialize();",
"            offsets.insert(offsets.end(), offset_ssz.begin(), offset_ssz.end());",
"",
"            auto part_ssz = part.serialize();",
"            offset += part_ssz.size();",
"            ret.insert(ret.end(), part_ssz.begin(), part_ssz.end());",
"        }",
"        if (offsets.size()) ret.insert(ret.begin(), offsets.begin(), offsets.end());",
"        return ret;",
"    }",
"    bool deserialize(ssz::SSZIterator it, ssz::SSZIterator end) override {",
"        m_arr.clear();",
"        if (it == end)  // empty list",
"            return true;",
"        if (std::distance(it, end) < constants::BYTES_PER_LENGTH_OFFSET) return false;",
"        auto start = it;",
"        auto first_offset = helpers::to_integer_little_endian<std::uint32_t>(&*it);",
"        if (first_offset < constants::BYTES_PER_LENGTH_OFFSET) return false;",
"        if (std::distance(start, end) < first_offset) return false;",
"        auto last_offset = first_offset;",
"        it += constants::BYTES_PER_LENGTH_OFFSET;",
"",
"        while (it != start + first_offset) {",
"            if (std::distance(start, it) + constants::BYTES_PER_LENGTH_OFFSET > first_offset) return false;",
"",
"            auto current_offset = helpers::to_integer_little_endian<std::uint32_t>(&*it);",
"            if (current_offset < last_offset) return false;",
"            if (std::distance(start, end) < current_offset) return false;",
"            T obj;",
"            if (!obj.deserialize(start + last_offset, start + current_offset)) return false;",
"            m_arr.push_back(obj);",
"            last_offset = current_offset;",
"            it += constants::BYTES_PER_LENGTH_OFFSET;",
"        }",
"        T obj;",
"        if (!obj.deserialize(start + last_offset, end)) return false;",
"        m_arr.push_back(obj);",
"        return true;",
"    }",
"",
"    YAML::Node encode() const override { return YAML::convert<std::vector<T>>::encode(m_arr); }",
"    bool decode(const YAML::Node &node) override { return YAML::convert<std::vector<T>>::decode(node, m_arr); }",
"};",
"",
"struct Fork : public ssz::Container {",
"    Version previous_version, current_version;",
"    Epoch epoch;",
"",
"    static constexpr std::size_t ssz_size = 16;",
"    std::size_t get_ssz_size() const override { return ssz_size; }",
"",
"    std::vector<ssz::Chunk> hash_tree() const override {",
"        return hash_tree_({&previous_version, &current_version, &epoch});",
"    }",
"",
"    BytesVector serialize() const override { return serialize_({&previous_version, &current_version, &epoch}); }",
"",
"    bool deserialize(ssz::SSZIterator it, ssz::SSZIterator end) override {",
"        return deserialize_(it, end, {&previous_version, &current_version, &epoch});",
"    }",
"",
"    bool operator==(const Fork &) const = default;",
"",
"    YAML::Node encode() const override {",
"        return encode_(",
"            {{\"previous_version\", &previous_version}, {\"current_version\", &current_version}, {\"epoch\", &epoch}});",
"    }",
"",
"    bool decode(const YAML::Node &node) override {",
"        return decode_(",
"            node, {{\"previous_version\", &previous_version}, {\"current_version\", &current_version}, {\"epoch\", &epoch}});",
"    }",
"};",
"",
"struct ForkData : public ssz::Container {",
"    Version current_version;",
"    Root genesis_validators_root;",
"",
"    static constexpr std::size_t ssz_size = 36;",
"    std::size_t get_ssz_size() const override { return ssz_size; }",
"",
"    std::vector<ssz::Chunk> hash_tree() const override {",
"        return hash_tree_({&current_version, &genesis_validators_root});",
"    }",
"",
"    BytesVector serialize() const override { return serialize_({&current_version, &genesis_validators_root}); }",
"",
"    bool deserialize(ssz::SSZIterator it, ssz::SSZIterator end) override {",
"        return deserialize_(it, end, {&current_version, &genesis_validators_root});",
"    }",
"",
"    YAML::Node encode() const override {",
"        return encode_({{\"current_version\", &current_version}, {\"genesis_validators_root\", &genesis_validators_root}});",
"    }",
"",
"    bool decode(const YAML::Node &node) override {",
"        return decode_(node,",
"                       {{\"current_version\", &current_version}, {\"genesis_validators_root\", &genesis_validators_root}});",
"    }",
"};",
"",
"struct Checkpoint : public ssz::Container {",
"    Epoch epoch;",
"    Root root;",
"",
"    static constexpr std::size_t ssz_size = 40;",
"    std::size_t get_ssz_size() const override { return ssz_size; }",
"    std::vector<ssz::Chunk> hash_tree() const override { return hash_tree_({&epoch, &root}); }",
"    BytesVector serialize() const override { return serialize_({&epoch, &root}); }",
"    bool deserialize(ssz::SSZIterator it, ssz::SSZIterator end) override {",
"        return deserialize_(it, end, {&epoch, &root});",
"    }",
"",
"    YAML::Node encode() const override { return encode_({{\"epoch\", &epoch}, {\"root\", &root}}); }",
"",
"    bool decode(const YAML::Node &node) override { return decode_(node, {{\"epoch\", &epoch}, {\"root\", &root}}); }",
"};",
"",
"struct SigningData : public ssz::Container {",
"    Root object_root;",
"    Domain domain;",
"",
"    static constexpr std::size_t ssz_size = 64;",
"    std::size_t get_ssz_size() const override { return ssz_size; }",
"",
"    std::vector<ssz::Chunk> hash_tree() const override { return hash_tree_({&object_root, &domain}); }",
"    BytesVector serialize() const override { return serialize_({&object_root, &domain}); }",
"    bool deserialize(ssz::SSZIterator it, ssz::SSZIterator end) override {",
"        return deserialize_(it, end, {&object_root, &domain});",
"    }",
"",
"    YAML::Node encode() const override { return encode_({{\"object_root\", &object_root}, {\"domain\", &domain}}); }",
"",
"    bool decode(const YAML::Node &node) override {",
"        return decode_(node, {{\"object_root\", &object_root}, {\"domain\", &domain}});",
"    }",
"};",
"",
"}  // namespace eth"]

/-- The lines of beacon-chain/attestation.hpp:1-91. -/
def attestationHpp : List String := [
"/*  attestation.hpp",
" *",
" *  This file is part of Mammon.",
" *  mammon is a greedy and selfish ETH consensus client.",
" *",
" *  Copyright (c) 2021 - Reimundo Heluani (potuz) potuz@potuz.net",
" *",
" *  This program is free software: you can redistribute it and/or modify",
" *  it under the terms of the GNU General Public License as published by",
" *  the Free Software Foundation, either version 3 of the License, or",
" *  (at your option) any later version.",
" *",
" *  This program is distributed in the hope that it will be useful,",
" *  but WITHOUT ANY WARRANTY; without even the implied warranty of",
" *  MERCHANTABILITY or FITNESS FOR A PARTICULAR PURPOSE.  See the",
" *  GNU General Public License for more details.",
" *",
" *  You should have received a copy of the GNU General Public License",
" *  along with this program.  If not, see <http://www.gnu.org/licenses/>.",
" */",
"",
"#pragma once",
"",
"#include \"common/bitlist.hpp\"",
"#include \"common/containers.hpp\"",
"#include \"config.hpp\"",
"#include \"ssz/ssz.hpp\"",
"#include \"yaml-cpp/yaml.h\"",
"",
"namespace eth {",
"class BeaconState;",
"",
"struct AttestationData : public ssz::Container {",
"    Slot slot;",
"    CommitteeIndex index;",
"",
"    Root beacon_block_root;",
"    Checkpoint source, target;",
"",
"    static constexpr std::size_t ssz_size = 128;",
"    std::size_t get_ssz_size() const override { return ssz_size; }",
"    std::vector<ssz::Chunk> hash_tree() const override;",
"    BytesVector serialize() const override;",
"    bool deserialize(ssz::SSZIterator it, ssz::SSZIterator end) override;",
"    bool is_slashable(const AttestationData&) const;",
"",
"    YAML::Node encode() const override;",
"    bool decode(const YAML::Node &node) override;",
"};",
"",
"struct IndexedAttestation : public ssz::Container {",
"    ListFixedSizedParts<ValidatorIndex> attesting_indices{constants::MAX_VALIDATORS_PER_COMMITTEE};",
"    AttestationData data;",
"    BLSSignature signature;",
"",
"    std::vector<ssz::Chunk> hash_tree() const override;",
"    BytesVector serialize() const override;",
"    bool deserialize(ssz::SSZIterator it, ssz::SSZIterator end) override;",
"    bool is_valid(const eth::BeaconState& state) const; ",
"",
"    YAML::Node encode() const override;",
"    bool decode(const YAML::Node &node) override;",
"};",
"",
"struct PendingAttestation : public ssz::Container {",
"    eth::Bitlist aggregation_bits{constants::MAX_VALIDATORS_PER_COMMITTEE};",
"    AttestationData data;",
"    Slot inclusion_delay;",
"    ValidatorIndex proposer_index;",
"",
"    std::vector<ssz::Chunk> hash_tree() const override;",
"    BytesVector serialize() const override;",
"    bool deserialize(ssz::SSZIterator it, ssz::SSZIterator end) override;",
"",
"    YAML::Node encode() const override;",
"    bool decode(const YAML::Node &node) override;",
"};",
"",
"struct Attestation : public ssz::Container {",
"    eth::Bitlist aggregation_bits{constants::MAX_VALIDATORS_PER_COMMITTEE};",
"    AttestationData data;",
"    BLSSignature signature;",
"",
"    std::vector<ssz::Chunk> hash_tree() const override;",
"    BytesVector serialize() const override;",
"    bool deserialize(ssz::SSZIterator it, ssz::SSZIterator end) override;",
"    ",
"    YAML::Node encode() const override;",
"    bool decode(const YAML::Node &node) override;",
"};",
"};  // namespace eth"]

/-- The lines of beacon-chain/attestation.cpp:1-122. -/
def attestationCpp : List String := [
"/*  attestation.cpp",
" *",
" *  This file is part of Mammon.",
" *  mammon is a greedy and selfish ETH consensus client.",
" *",
" *  Copyright (c) 2021 - Reimundo Heluani (potuz) potuz@potuz.net",
" *",
" *  This program is free software: you can redistribute it and/or modify",
" *  it under the terms of the GNU General Public License as published by",
" *  the Free Software Foundation, either version 3 of the License, or",
" *  (at your option) any later version.",
" *",
" *  This program is distributed in the hope that it will be useful,",
" *  but WITHOUT ANY WARRANTY; without even the implied warranty of",
" *  MERCHANTABILITY or FITNESS FOR A PARTICULAR PURPOSE.  See the",
" *  GNU General Public License for more details.",
" *",
" *  You should have received a copy of the GNU General Public License",
" *  along with this program.  If not, see <http://www.gnu.org/licenses/>.",
" */",
"",
"#include \"beacon-chain/attestation.hpp\"",
"#include \"beacon-chain/beacon_state.hpp\"",
"#include <algorithm>",
"",
"namespace eth {",
"    std::vector<ssz::Chunk> AttestationData::hash_tree() const {",
"        return hash_tree_({&slot, &index, &beacon_block_root, &source, &target});",
"    }",
"    BytesVector AttestationData::serialize() const {",
"        return serialize_({&slot, &index, &beacon_block_root, &source, &target});",
"    }",
"    bool AttestationData::deserialize(ssz::SSZIterator it, ssz::SSZIterator end) {",
"        return deserialize_(it, end, {&slot, &index, &beacon_block_root, &source, &target});",
"    }",
"    bool AttestationData::is_slashable(const AttestationData& rhs) const {",
"        if (*this != rhs && target.epoch == rhs.target.epoch) return true;",
"        return (source.epoch < rhs.source.epoch && target.epoch > rhs.target.epoch);",
"    }",
"",
"    YAML::Node AttestationData::encode() const {",
"        return encode_({{\"slot\", &slot},",
"                        {\"index\", &index},",
"                        {\"beacon_block_root\", &beacon_block_root},",
"                        {\"source\", &source},",
"                        {\"target\", &target}});",
"    }",
"",
"    bool AttestationData::decode(const YAML::Node &node) {",
"        return decode_(node, {{\"slot\", &slot},",
"                              {\"index\", &index},",
"                              {\"beacon_block_root\", &beacon_block_root},",
"                              {\"source\", &source},",
"                              {\"target\", &target}});",
"    }",
"",
"    std::vector<ssz::Chunk> IndexedAttestation::hash_tree() const {",
"        return hash_tree_({&attesting_indices, &data, &signature});",
"    }",
"    BytesVector IndexedAttestation::serialize() const {",
"        return serialize_({&attesting_indices, &data, &signature});",
"    }",
"",
"    bool IndexedAttestation::deserialize(ssz::SSZIterator it, ssz::SSZIterator end) {",
"        return deserialize_(it, end, {&attesting_indices, &data, &signature});",
"    }",
"    bool IndexedAttestation::is_valid(const eth::BeaconState& state) const {",
"        if (!attesting_indices.size()) return false;",
"        if (!std::is_sorted(attesting_indices.cbegin(), attesting_indices.cend())) return false;",
"        const auto dup = std::adjacent_find(attesting_indices.cbegin(), attesting_indices.cend());",
"        return (dup == attesting_indices.cend());",
"    }",
"",
"    YAML::Node IndexedAttestation::encode() const {",
"        return encode_({{\"attesting_indices\", &attesting_indices}, {\"data\", &data}, {\"signature\", &signature}});",
"    }",
"",
"    bool IndexedAttestation::decode(const YAML::Node &node) {",
"        return decode_(node, {{\"attesting_indices\", &attesting_indices}, {\"data\", &data}, {\"signature\", &signature}});",
"    }",
"",
"    std::vector<ssz::Chunk> PendingAttestation::hash_tree() const {",
"        return hash_tree_({&aggregation_bits, &data, &inclusion_delay, &proposer_index});",
"    }",
"    BytesVector PendingAttestation::serialize() const {",
"        return serialize_({&aggregation_bits, &data, &inclusion_delay, &proposer_index});",
"    }",
"    bool PendingAttestation::deserialize(ssz::SSZIterator it, ssz::SSZIterator end) {",
"        return deserialize_(it, end, {&aggregation_bits, &data, &inclusion_delay, &proposer_index});",
"    }",
"",
"    YAML::Node PendingAttestation::encode() const {",
"        return encode_({{\"aggregation_bits\", &aggregation_bits},",
"                        {\"data\", &data},",
"                        {\"inclusion_delay\", &inclusion_delay},",
"                        {\"proposer_index\", &proposer_index}});",
"    }",
"",
"    bool PendingAttestation::decode(const YAML::Node &node) {",
"        return decode_(node, {{\"aggregation_bits\", &aggregation_bits},",
"                              {\"data\", &data},",
"                              {\"inclusion_delay\", &inclusion_delay},",
"                              {\"proposer_index\", &proposer_index}});",
"    }",
"",
"    std::vector<ssz::Chunk> Attestation::hash_tree() const {",
"        return hash_tree_({&aggregation_bits, &data, &signature});",
"    }",
"    BytesVector Attestation::serialize() const {",
"        return serialize_({&aggregation_bits, &data, &signature});",
"    }",
"    bool Attestation::deserialize(ssz::SSZIterator it, ssz::SSZIterator end) {",
"        return deserialize_(it, end, {&aggregation_bits, &data, &signature});",
"    }",
"    YAML::Node Attestation::encode() const {",
"        return encode_({{\"aggregation_bits\", &aggregation_bits}, {\"data\", &data}, {\"signature\", &signature}});",
"    }",
"",
"    bool Attestation::decode(const YAML::Node &node) {",
"        return decode_(node, {{\"aggregation_bits\", &aggregation_bits}, {\"data\", &data}, {\"signature\", &signature}});",
"    }",
"};  // namespace eth"]

/-- The lines of beacon-chain/eth1data.hpp:1-51. -/
def eth1Data : List String := [
"/*  eth1data.hpp",
" *",
" *  This file is part of Mammon.",
" *  mammon is a greedy and selfish ETH consensus client.",
" *",
" *  Copyright (c) 2021 - Reimundo Heluani (potuz) potuz@potuz.net",
" *",
" *  This program is free software: you can redistribute it and/or modify",
" *  it under the terms of the GNU General Public License as published by",
" *  the Free Software Foundation, either version 3 of the License, or",
" *  (at your option) any later version.",
" *",
" *  This program is distributed in the hope that it will be useful,",
" *  but WITHOUT ANY WARRANTY; without even the implied warranty of",
" *  MERCHANTABILITY or FITNESS FOR A PARTICULAR PURPOSE.  See the",
" *  GNU General Public License for more details.",
" *",
" *  You should have received a copy of the GNU General Public License",
" *  along with this program.  If not, see <http://www.gnu.org/licenses/>.",
" */",
"",
"#pragma once",
"#include \"ssz/ssz_container.hpp\"",
"#include \"yaml-cpp/yaml.h\"",
"",
"namespace eth {",
"struct Eth1Data : public ssz::Container {",
"    Root deposit_root;",
"    Counter deposit_count;",
"    Hash32 block_hash;",
"",
"    static constexpr std::size_t ssz_size = 72;",
"    std::size_t get_ssz_size() const override { return ssz_size; }",
"    std::vector<ssz::Chunk> hash_tree() const override {",
"        return hash_tree_({&deposit_root, &deposit_count, &block_hash});",
"    }",
"    BytesVector serialize() const override { return serialize_({&deposit_root, &deposit_count, &block_hash}); }",
"    bool deserialize(ssz::SSZIterator it, ssz::SSZIterator end) override {",
"        return deserialize_(it, end, {&deposit_root, &deposit_count, &block_hash});",
"    }",
"    YAML::Node encode() const override {",
"        return encode_(",
"            {{\"deposit_root\", &deposit_root}, {\"deposit_count\", &deposit_count}, {\"block_hash\", &block_hash}});",
"    }",
"",
"    bool decode(const YAML::Node &node) override {",
"        return decode_(",
"            node, {{\"deposit_root\", &deposit_root}, {\"deposit_count\", &deposit_count}, {\"block_hash\", &block_hash}});",
"    }",
"};",
"}  // namespace eth"]

/-- The lines of beacon-chain/beacon_block.hpp:1-303. -/
def beaconBlockHpp : List String := [
"/*  beacon_block.hpp",
" *",
" *  This file is part of Mammon.",
" *  mammon is a greedy and selfish ETH consensus client.",
" *",
" *  Copyright (c) 2021 - Reimundo Heluani (potuz) potuz@potuz.net",
" *",
" *  This program is free software: you can redistribute it and/or modify",
" *  it under the terms of the GNU General Public License as published by",
" *  the Free Software Foundation, either version 3 of the License, or",
" *  (at your option) any later version.",
" *",
" *  This program is distributed in the hope that it will be useful,",
" *  but WITHOUT ANY WARRANTY; without even the implied warranty of",
" *  MERCHANTABILITY or FITNESS FOR A PARTICULAR PURPOSE.  See the",
" *  GNU General Public License for more details.",
" *",
" *  You should have received a copy of the GNU General Public License",
" *  along with this program.  If not, see <http://www.gnu.org/licenses/>.",
" */",
"",
"#pragma once",
"",
"#include <utility>",
"",
"#include \"beacon-chain/attestation.hpp\"",
"#include \"beacon-chain/deposits.hpp\"",
"#include \"beacon-chain/eth1data.hpp\"",
"#include \"include/config.hpp\"",
"#include \"ssz/ssz.hpp\"",
"#include \"ssz/ssz_container.hpp\"",
"#include \"yaml-cpp/yaml.h\"",
"",
"namespace eth {",
"struct BeaconBlockHeader : public ssz::Container {",
"    Slot slot;",
"    ValidatorIndex proposer_index;",
"    Root parent_root, state_root, body_root;",
"",
"    static constexpr std::size_t ssz_size = 112;",
"    std::size_t get_ssz_size() const override { return ssz_size; }",
"    std::vector<ssz::Chunk> hash_tree() const override {",
"        return hash_tree_({&slot, &proposer_index, &parent_root, &state_root, &body_root});",
"    }",
"    BytesVector serialize() const override {",
"        return serialize_({&slot, &proposer_index, &parent_root, &state_root, &body_root});",
"    }",
"    bool deserialize(ssz::SSZIterator it, ssz::SSZIterator end) override {",
"        return deserialize_(it, end, {&slot, &proposer_index, &parent_root, &state_root, &body_root});",
"    }",
"",
"    bool operator==(const BeaconBlockHeader &) const = default;",
"",
"    YAML::Node encode() const override {",
"        return encode_({{\"slot\", &slot},",
"                        {\"proposer_index\", &proposer_index},",
"                        {\"parent_root\", &parent_root},",
"                        {\"state_root\", &state_root},",
"                        {\"body_root\", &body_root}});",
"    }",
"",
"    bool decode(const YAML::Node &node) override {",
"        return decode_(node, {{\"slot\", &slot},",
"                              {\"proposer_index\", &proposer_index},",
"                              {\"parent_root\", &parent_root},",
"                              {\"state_root\", &state_root},",
"                              {\"body_root\", &body_root}});",
"    }",
"};",
"",
"struct VoluntaryExit : public ssz::Container {",
"    Epoch epoch;",
"    ValidatorIndex validator_index;",
"",
"    static constexpr std::size_t ssz_size = 16;",
"    std::size_t get_ssz_size() const override { return ssz_size; }",
"",
"    std::vector<ssz::Chunk> hash_tree() const override { return hash_tree_({&epoch, &validator_index}); }",
"    BytesVector serialize() const override { return serialize_({&epoch, &validator_index}); }",
"    bool deserialize(ssz::SSZIterator it, ssz::SSZIterator end) override {",
"        return deserialize_(it, end, {&epoch, &validator_index});",
"    }",
"    bool operator==(const VoluntaryExit &) const = default;",
"",
"    YAML::Node encode() const override { return encode_({{\"epoch\", &epoch}, {\"validator_index\", &validator_index}}); }",
"",
"    bool decode(const YAML::Node &node) override {",
"        return decode_(node, {{\"epoch\", &epoch}, {\"validator_index\", &validator_index}});",
"    }",
"};",
"",
"struct SignedVoluntaryExit : public ssz::Container {",
"    VoluntaryExit message;",
"    BLSSignature signature;",
"",
"    static constexpr std::size_t ssz_size = 112;",
"    std::size_t get_ssz_size() const override { return ssz_size; }",
"    std::vector<ssz::Chunk> hash_tree() const override { return hash_tree_({&message, &signature}); }",
"    BytesVector serialize() const override { return serialize_({&message, &signature}); }",
"    bool deserialize(ssz::SSZIterator it, ssz::SSZIterator end) override {",
"        return deserialize_(it, end, {&message, &signature});",
"    }",
"    bool operator==(const SignedVoluntaryExit &) const = default;",
"",
"    YAML::Node encode() const override { return encode_({{\"message\", &message}, {\"signature\", &signature}}); }",
"",
"    bool decode(const YAML::Node &node) override {",
"        return decode_(node, {{\"message\", &message}, {\"signature\", &signature}});",
"    }",
"};",
"",
"struct ProposerSlashing;",
"struct AttesterSlashing;",
"",
"class BeaconBlockBody : public ssz::Container {",
"   private:",
"    BLSSignature randao_reveal_;",
"    Eth1Data eth1_data_;",
"    Bytes32 graffiti_;",
"",
"    ListFixedSizedParts<ProposerSlashing> proposer_slashings_{constants::MAX_PROPOSER_SLASHINGS};",
"    ListVariableSizedParts<AttesterSlashing> attester_slashings_{constants::MAX_ATTESTER_SLASHINGS};",
"    ListVariableSizedParts<Attestation> attestations_{constants::MAX_ATTESTATIONS};",
"    ListFixedSizedParts<Deposit> deposits_{constants::MAX_DEPOSITS};",
"    ListFixedSizedParts<SignedVoluntaryExit> voluntary_exits_{constants::MAX_VOLUNTARY_EXITS};",
"",
"   public:",
"    constexpr BLSSignature const &randao_reveal() const { return randao_reveal_; }",
"    constexpr Eth1Data const &eth1_data() const { return eth1_data_; }",
"    constexpr Bytes32 const &graffiti() const { return graffiti_; }",
"    constexpr ListFixedSizedParts<ProposerSlashing> const &proposer_slashings() const { return proposer_slashings_; }",
"    constexpr ListVariableSizedParts<AttesterSlashing> const &attester_slashings() const { return attester_slashings_; }",
"    constexpr ListVariableSizedParts<Attestation> const &attestations() const { return attestations_; }",
"    constexpr ListFixedSizedParts<Deposit> const &deposits() const { return deposits_; }",
"    constexpr ListFixedSizedParts<SignedVoluntaryExit> const &voluntary_exits() const { return voluntary_exits_; }",
"",
"    void randao_reveal(BLSSignature &&s);",
"    void eth1_data(Eth1Data &&);",
"    void graffiti(Bytes32 &&);",
"    void proposer_slashings(ListFixedSizedParts<ProposerSlashing> &&);",
"    void attester_slashings(ListVariableSizedParts<AttesterSlashing> &&);",
"    void attestations(ListVariableSizedParts<Attestation> &&);",
"    void deposits(ListFixedSizedParts<Deposit> &&);",
"    void voluntary_exits(ListFixedSizedParts<SignedVoluntaryExit> &&);",
"",
"    std::vector<ssz::Chunk> hash_tree() const override {",
"        return hash_tree_({&randao_reveal_, &eth1_data_, &graffiti_, &proposer_slashings_, &attester_slashings_,",
"                           &attestations_, &deposits_, &voluntary_exits_});",
"    }",
"",
"    BytesVector serialize() const override {",
"        return serialize_({&randao_reveal_, &eth1_data_, &graffiti_, &proposer_slashings_, &attester_slashings_,",
"                           &attestations_, &deposits_, &voluntary_exits_});",
"    }",
"",
"    bool deserialize(ssz::SSZIterator it, ssz::SSZIterator end) override {",
"        return deserialize_(it, end,",
"                            {&randao_reveal_, &eth1_data_, &graffiti_, &proposer_slashings_, &attester_slashings_,",
"                             &attestations_, &deposits_, &voluntary_exits_});",
"    }",
"",
"    YAML::Node encode() const override {",
"        return encode_({{\"randao_reveal\", &randao_reveal_},",
"                        {\"eth1_data\", &eth1_data_},",
"                        {\"graffiti\", &graffiti_},",
"                        {\"proposer_slashings\", &proposer_slashings_},",
"                        {\"attester_slashings\", &attester_slashings_},",
"                        {\"attestations\", &attestations_},",
"                        {\"deposits\", &deposits_},",
"                        {\"voluntary_exits\", &voluntary_exits_}});",
"    }",
"",
"    bool decode(const YAML::Node &node) override {",
"        return decode_(node, {{\"randao_reveal\", &randao_reveal_},",
"                              {\"eth1_data\", &eth1_data_},",
"                              {\"graffiti\", &graffiti_},",
"                              {\"proposer_slashings\", &proposer_slashings_},",
"                              {\"attester_slashings\", &attester_slashings_},",
"                              {\"attestations\", &attestations_},",
"                              {\"deposits\", &deposits_},",
"                              {\"voluntary_exits\", &voluntary_exits_}});",
"    }",
"};",
"",
"class BeaconBlock : public ssz::Container {",
"    Slot slot_;",
"    ValidatorIndex proposer_index_;",
"    Root parent_root_, state_root_;",
"    BeaconBlockBody body_;",
"",
"   public:",
"    Slot slot() const { return slot_; }",
"    ValidatorIndex proposer_index() const { return proposer_index_; }",
"    const Root &parent_root() const { return parent_root_; }",
"    const Root &state_root() const { return state_root_; }",
"    const BeaconBlockBody &body() const { return body_; }",
"    void slot(Slot &&);",
"    void proposer_index(ValidatorIndex &&);",
"    void parent_root(Root &&);",
"    void state_root(Root &&);",
"    void body(BeaconBlockBody &&);",
"",
"    std::vector<ssz::Chunk> hash_tree() const override {",
"        return hash_tree_({&slot_, &proposer_index_, &parent_root_, &state_root_, &body_});",
"    }",
"",
"    BytesVector serialize() const override {",
"        return serialize_({&slot_, &proposer_index_, &parent_root_, &state_root_, &body_});",
"    }",
"",
"    bool deserialize(ssz::SSZIterator it, ssz::SSZIterator end) override {",
"        return deserialize_(it, end, {&slot_, &proposer_index_, &parent_root_, &state_root_, &body_});",
"    }",
"",
"    YAML::Node encode() const override {",
"        return encode_({{\"slot\", &slot_},",
"                        {\"proposer_index\", &proposer_index_},",
"                        {\"parent_root\", &parent_root_},",
"                        {\"state_root\", &state_root_},",
"                        {\"body\", &body_}});",
"    }",
"",
"    bool decode(const YAML::Node &node) override {",
"        return decode_(node, {{\"slot\", &slot_},",
"                              {\"proposer_index\", &proposer_index_},",
"                              {\"parent_root\", &parent_root_},",
"                              {\"state_root\", &state_root_},",
"                              {\"body\", &body_}});",
"    }",
"};",
"",
"struct SignedBeaconBlockHeader : public ssz::Container {",
"    BeaconBlockHeader message;",
"    BLSSignature signature;",
"",
"    static constexpr std::size_t ssz_size = 208;",
"    std::size_t get_ssz_size() const override { return ssz_size; }",
"    std::vector<ssz::Chunk> hash_tree() const override { return hash_tree_({&message, &signature}); }",
"    BytesVector serialize() const override { return serialize_({&message, &signature}); }",
"    bool deserialize(ssz::SSZIterator it, ssz::SSZIterator end) override {",
"        return deserialize_(it, end, {&message, &signature});",
"    }",
"",
"    YAML::Node encode() const override { return encode_({{\"message\", &message}, {\"signature\", &signature}}); }",
"",
"    bool decode(const YAML::Node &node) override {",
"        return decode_(node, {{\"message\", &message}, {\"signature\", &signature}});",
"    }",
"};",
"",
"struct ProposerSlashing : public ssz::Container {",
"    SignedBeaconBlockHeader signed_header_1, signed_header_2;",
"",
"    static constexpr std::size_t ssz_size = 416;",
"    std::size_t get_ssz_size() const override { return ssz_size; }",
"    std::vector<ssz::Chunk> hash_tree() const override { return hash_tree_({&signed_header_1, &signed_header_2}); }",
"    BytesVector serialize() const override { return serialize_({&signed_header_1, &signed_header_2}); }",
"    bool deserialize(ssz::SSZIterator it, ssz::SSZIterator end) override {",
"        return deserialize_(it, end, {&signed_header_1, &signed_header_2});",
"    }",
"",
"    YAML::Node encode() const override {",
"        return encode_({{\"signed_header_1\", &signed_header_1}, {\"signed_header_2\", &signed_header_2}});",
"    }",
"    bool decode(const YAML::Node &node) override {",
"        return decode_(node, {{\"signed_header_1\", &signed_header_1}, {\"signed_header_2\", &signed_header_2}});",
"    }",
"};",
"",
"struct AttesterSlashing : public ssz::Container {",
"    IndexedAttestation attestation_1, attestation_2;",
"",
"    std::vector<ssz::Chunk> hash_tree() const override { return hash_tree_({&attestation_1, &attestation_2}); }",
"    BytesVector serialize() const override { return serialize_({&attestation_1, &attestation_2}); }",
"    bool deserialize(ssz::SSZIterator it, ssz::SSZIterator end) override {",
"        return deserialize_(it, end, {&attestation_1, &attestation_2});",
"    }",
"    YAML::Node encode() const override {",
"        return encode_({{\"attestation_1\", &attestation_1}, {\"attestation_2\", &attestation_2}});",
"    }",
"",
"    bool decode(const YAML::Node &node) override {",
"        return decode_(node, {{\"attestation_1\", &attestation_1}, {\"attestation_2\", &attestation_2}});",
"    }",
"};",
"",
"struct SignedBeaconBlock : public ssz::Container {",
"    BeaconBlock message;",
"    BLSSignature signature;",
"",
"    std::vector<ssz::Chunk> hash_tree() const override { return hash_tree_({&message, &signature}); }",
"    BytesVector serialize() const override { return serialize_({&message, &signature}); }",
"    bool deserialize(ssz::SSZIterator it, ssz::SSZIterator end) override {",
"        return deserialize_(it, end, {&message, &signature});",
"    }",
"",
"    YAML::Node encode() const override { return encode_({{\"message\", &message}, {\"signature\", &signature}}); }",
"",
"    bool decode(const YAML::Node &node) override {",
"        return decode_(node, {{\"message\", &message}, {\"signature\", &signature}});",
"    }",
"};",
"}  // namespace eth"]

/-- The lines of beacon-chain/beacon_block.cpp:1-60. -/
def beaconBlockCpp : List String := [
"/*  beacon_block.cpp",
" *",
" *  This file is part of Mammon.",
" *  mammon is a greedy and selfish ETH consensus client.",
" *",
" *  Copyright (c) 2021 - Reimundo Heluani (potuz) potuz@potuz.net",
" *",
" *  This program is free software: you can redistribute it and/or modify",
" *  it under the terms of the GNU General Public License as published by",
" *  the Free Software Foundation, either version 3 of the License, or",
" *  (at your option) any later version.",
" *",
" *  This program is distributed in the hope that it will be useful,",
" *  but WITHOUT ANY WARRANTY; without even the implied warranty of",
" *  MERCHANTABILITY or FITNESS FOR A PARTICULAR PURPOSE.  See the",
" *  GNU General Public License for more details.",
" *",
" *  You should have received a copy of the GNU General Public License",
" *  along with this program.  If not, see <http://www.gnu.org/licenses/>.",
" */",
"",
"#include \"beacon_block.hpp\"",
"",
"#include \"ssz/ssz.hpp\"",
"",
"/*",
"namespace eth {",
"// cppcheck-suppress unusedFunction",
"void BeaconBlockBody::randao_reveal(BLSSignature &&s) { randao_reveal_ = s; }",
"// cppcheck-suppress unusedFunction",
"void BeaconBlockBody::eth1_data(Eth1Data &&data) { eth1_data_ = data; }",
"// cppcheck-suppress unusedFunction",
"void BeaconBlockBody::graffiti(Bytes32 &&g) { graffiti_ = g; }",
"// cppcheck-suppress unusedFunction",
"void BeaconBlockBody::proposer_slashings(ListFixedSizedParts<ProposerSlashing> &&p) {",
"    proposer_slashings_ = p;",
"}",
"// cppcheck-suppress unusedFunction",
"void BeaconBlockBody::attester_slashings(ListVariableSizedParts<AttesterSlashing> &&a) {",
"    attester_slashings_ = a;",
"}",
"// cppcheck-suppress unusedFunction",
"void BeaconBlockBody::attestations(ListVariableSizedParts<Attestation> &&a) { attestations_ = a; }",
"// cppcheck-suppress unusedFunction",
"void BeaconBlockBody::deposits(ListFixedSizedParts<Deposit> &&d) { deposits_ = d; }",
"// cppcheck-suppress unusedFunction",
"void BeaconBlockBody::voluntary_exits(ListFixedSizedParts<SignedVoluntaryExit> &&s) { voluntary_exits_ = s; }",
"",
"// cppcheck-suppress unusedFunction",
"void BeaconBlock::slot(Slot &&s) { slot_ = s; }",
"// cppcheck-suppress unusedFunction",
"void BeaconBlock::proposer_index(ValidatorIndex &&idx) { proposer_index_ = idx; }",
"// cppcheck-suppress unusedFunction",
"void BeaconBlock::parent_root(Root &&r) { parent_root_ = r; }",
"// cppcheck-suppress unusedFunction",
"void BeaconBlock::state_root(Root &&r) { state_root_ = r; }",
"// cppcheck-suppress unusedFunction",
"void BeaconBlock::body(BeaconBlockBody &&b) { body_ = b; }",
"}  // namespace eth",
"*/"]

/-- The lines of beacon-chain/deposits.hpp:1-105. -/
def deposits : List String := [
"/*  deposits.hpp",
" *",
" *  This file is part of Mammon.",
" *  mammon is a greedy and selfish ETH consensus client.",
" *",
" *  Copyright (c) 2021 - Reimundo Heluani (potuz) potuz@potuz.net",
" *",
" *  This program is free software: you can redistribute it and/or modify",
" *  it under the terms of the GNU General Public License as published by",
" *  the Free Software Foundation, either version 3 of the License, or",
" *  (at your option) any later version.",
" *",
" *  This program is distributed in the hope that it will be useful,",
" *  but WITHOUT ANY WARRANTY; without even the implied warranty of",
" *  MERCHANTABILITY or FITNESS FOR A PARTICULAR PURPOSE.  See the",
" *  GNU General Public License for more details.",
" *",
" *  You should have received a copy of the GNU General Public License",
" *  along with this program.  If not, see <http://www.gnu.org/licenses/>.",
" */",
"",
"#pragma once",
"#include <numeric>",
"",
"#include \"common/containers.hpp\"",
"#include \"config/constants.hpp\"",
"#include \"include/config.hpp\"",
"#include \"ssz/ssz_container.hpp\"",
"#include \"yaml-cpp/yaml.h\"",
"",
"namespace eth {",
"struct DepositMessage : public ssz::Container {",
"    BLSPubkey pubkey;",
"    Bytes32 withdrawal_credentials;",
"    Gwei amount;",
"",
"    static constexpr std::size_t ssz_size = 88;",
"    std::size_t get_ssz_size() const override { return ssz_size; }",
"    std::vector<ssz::Chunk> hash_tree() const override {",
"        return hash_tree_({&pubkey, &withdrawal_credentials, &amount});",
"    }",
"    BytesVector serialize() const override { return serialize_({&pubkey, &withdrawal_credentials, &amount}); }",
"    bool deserialize(ssz::SSZIterator it, ssz::SSZIterator end) override {",
"        return deserialize_(it, end, {&pubkey, &withdrawal_credentials, &amount});",
"    }",
"    YAML::Node encode() const override {",
"        return encode_({{\"pubkey\", &pubkey}, {\"withdrawal_credentials\", &withdrawal_credentials}, {\"amount\", &amount}});",
"    }",
"",
"    bool decode(const YAML::Node &node) override {",
"        return decode_(node,",
"                       {{\"pubkey\", &pubkey}, {\"withdrawal_credentials\", &withdrawal_credentials}, {\"amount\", &amount}});",
"    }",
"};",
"",
"struct DepositData : public ssz::Container {",
"    BLSPubkey pubkey;",
"    Bytes32 withdrawal_credentials;",
"    Gwei amount;",
"    BLSSignature signature;",
"",
"    static constexpr std::size_t ssz_size = 184;",
"    std::size_t get_ssz_size() const override { return ssz_size; }",
"",
"    std::vector<ssz::Chunk> hash_tree() const override {",
"        return hash_tree_({&pubkey, &withdrawal_credentials, &amount, &signature});",
"    }",
"    BytesVector serialize() const override {",
"        return serialize_({&pubkey, &withdrawal_credentials, &amount, &signature});",
"    }",
"    bool deserialize(ssz::SSZIterator it, ssz::SSZIterator end) override {",
"        return deserialize_(it, end, {&pubkey, &withdrawal_credentials, &amount, &signature});",
"    }",
"    YAML::Node encode() const override {",
"        return encode_({{\"pubkey\", &pubkey},",
"                        {\"withdrawal_credentials\", &withdrawal_credentials},",
"                        {\"amount\", &amount},",
"                        {\"signature\", &signature}});",
"    }",
"",
"    bool decode(const YAML::Node &node) override {",
"        return decode_(node, {{\"pubkey\", &pubkey},",
"                              {\"withdrawal_credentials\", &withdrawal_credentials},",
"                              {\"amount\", &amount},",
"                              {\"signature\", &signature}});",
"    }",
"};",
"",
"struct Deposit : public ssz::Container {",
"    VectorFixedSizedParts<Bytes32, constants::DEPOSIT_CONTRACT_TREE_DEPTH + 1> proof;",
"    eth::DepositData data;",
"",
"    static constexpr std::size_t ssz_size = 32 * constants::DEPOSIT_CONTRACT_TREE_DEPTH + 216;",
"    std::size_t get_ssz_size() const override { return ssz_size; }",
"    std::vector<ssz::Chunk> hash_tree() const override { return hash_tree_({&proof, &data}); }",
"    BytesVector serialize() const override { return serialize_({&proof, &data}); }",
"    bool deserialize(ssz::SSZIterator it, ssz::SSZIterator end) override {",
"        return deserialize_(it, end, {&proof, &data});",
"    }",
"",
"    YAML::Node encode() const override { return encode_({{\"proof\", &proof}, {\"data\", &data}}); }",
"",
"    bool decode(const YAML::Node &node) override { return decode_(node, {{\"proof\", &proof}, {\"data\", &data}}); }",
"};",
"}  // namespace eth"]

/-- The lines of beacon-chain/validator.hpp:1-52. -/
def validatorHpp : List String := [
"/*  validator.hpp",
" *",
" *  This file is part of Mammon.",
" *  mammon is a greedy and selfish ETH consensus client.",
" *",
" *  Copyright (c) 2021 - Reimundo Heluani (potuz) potuz@potuz.net",
" *",
" *  This program is free software: you can redistribute it and/or modify",
" *  it under the terms of the GNU General Public License as published by",
" *  the Free Software Foundation, either version 3 of the License, or",
" *  (at your option) any later version.",
" *",
" *  This program is distributed in the hope that it will be useful,",
" *  but WITHOUT ANY WARRANTY; without even the implied warranty of",
" *  MERCHANTABILITY or FITNESS FOR A PARTICULAR PURPOSE.  See the",
" *  GNU General Public License for more details.",
" *",
" *  You should have received a copy of the GNU General Public License",
" *  along with this program.  If not, see <http://www.gnu.org/licenses/>.",
" */",
"",
"#pragma once",
"",
"#include \"common/boolean.hpp\"",
"#include \"common/slot.hpp\"",
"#include \"config/constants.hpp\"",
"#include \"ssz/ssz_container.hpp\"",
"",
"namespace eth {",
"class Validator : public ssz::Container {",
"   private:",
"    BLSPubkey pubkey;",
"    Bytes32 withdrawal_credentials;",
"    Gwei effective_balance;",
"    Boolean slashed;",
"    Epoch activation_eligibility_epoch, activation_epoch, exit_epoch, withdrawable_epoch;",
"",
"   public:",
"    static constexpr std::size_t ssz_size = 121;",
"    std::size_t get_ssz_size() const override { return ssz_size; }",
"    std::vector<ssz::Chunk> hash_tree() const override;",
"    BytesVector serialize() const override;",
"    bool deserialize(ssz::SSZIterator it, ssz::SSZIterator end) override;",
"",
"    bool is_active(const Epoch& epoch) const noexcept;",
"    bool is_eligible_for_activation_queue() const noexcept;",
"    bool is_slashable(const Epoch& epoch) const noexcept;",
"",
"    YAML::Node encode() const override; ",
"    bool decode(const YAML::Node &node) override;",
"};",
"}  // namespace eth"]

/-- The lines of beacon-chain/validator.cpp:1-69. -/
def validatorCpp : List String := [
"/*  validator.cpp",
" *",
" *  This file is part of Mammon.",
" *  mammon is a greedy and selfish ETH consensus client.",
" *",
" *  Copyright (c) 2021 - Reimundo Heluani (potuz) potuz@potuz.net",
" *",
" *  This program is free software: you can redistribute it and/or modify",
" *  it under the terms of the GNU General Public License as published by",
" *  the Free Software Foundation, either version 3 of the License, or",
" *  (at your option) any later version.",
" *",
" *  This program is distributed in the hope that it will be useful,",
" *  but WITHOUT ANY WARRANTY; without even the implied warranty of",
" *  MERCHANTABILITY or FITNESS FOR A PARTICULAR PURPOSE.  See the",
" *  GNU General Public License for more details.",
" *",
" *  You should have received a copy of the GNU General Public License",
" *  along with this program.  If not, see <http://www.gnu.org/licenses/>.",
" */",
"#include \"beacon-chain/validator.hpp\"",
"",
"namespace eth {",
"    std::vector<ssz::Chunk>  Validator::hash_tree() const {",
"        return hash_tree_({&pubkey, &withdrawal_credentials, &effective_balance, &slashed,",
"                           &activation_eligibility_epoch, &activation_epoch, &exit_epoch, &withdrawable_epoch});",
"    }",
"    BytesVector Validator::serialize() const {",
"        return serialize_({&pubkey, &withdrawal_credentials, &effective_balance, &slashed,",
"                           &activation_eligibility_epoch, &activation_epoch, &exit_epoch, &withdrawable_epoch});",
"    }",
"",
"    bool Validator::deserialize(ssz::SSZIterator it, ssz::SSZIterator end) {",
"        return deserialize_(it, end,",
"                            {&pubkey, &withdrawal_credentials, &effective_balance, &slashed,",
"                             &activation_eligibility_epoch, &activation_epoch, &exit_epoch, &withdrawable_epoch});",
"    }",
"    bool Validator::is_active(const Epoch& epoch) const noexcept {",
"        return activation_epoch <= epoch && epoch < exit_epoch;",
"    }",
"    bool Validator::is_eligible_for_activation_queue() const noexcept {",
"        return activation_eligibility_epoch == constants::FAR_FUTURE_EPOCH && ",
"            effective_balance  == constants::MAX_EFFECTIVE_BALANCE; ",
"    }",
"    bool Validator::is_slashable(const Epoch& epoch) const noexcept {",
"        return (!slashed) && (activation_epoch <= epoch) && (epoch < withdrawable_epoch);",
"    }",
"",
"    YAML::Node Validator::encode() const {",
"        return encode_({{\"pubkey\", &pubkey},",
"                        {\"withdrawal_credentials\", &withdrawal_credentials},",
"                        {\"effective_balance\", &effective_balance},",
"                        {\"slashed\", &slashed},",
"                        {\"activation_eligibility_epoch\", &activation_eligibility_epoch},",
"                        {\"activation_epoch\", &activation_epoch},",
"                        {\"exit_epoch\", &exit_epoch},",
"                        {\"withdrawable_epoch\", &withdrawable_epoch}});",
"    }",
"    bool Validator::decode(const YAML::Node &node) {",
"        return decode_(node, {{\"pubkey\", &pubkey},",
"                              {\"withdrawal_credentials\", &withdrawal_credentials},",
"                              {\"effective_balance\", &effective_balance},",
"                              {\"slashed\", &slashed},",
"                              {\"activation_eligibility_epoch\", &activation_eligibility_epoch},",
"                              {\"activation_epoch\", &activation_epoch},",
"                              {\"exit_epoch\", &exit_epoch},",
"                              {\"withdrawable_epoch\", &withdrawable_epoch}});",
"    }",
"} // namespace eth"]

/-- The lines of beacon-chain/beacon_state.hpp:1-221. -/
def beaconStateHpp : List String := [
"/*  beacon_state.hpp",
" *",
" *  This file is part of Mammon.",
" *  mammon is a greedy and selfish ETH consensus client.",
" *",
" *  Copyright (c) 2021 - Reimundo Heluani (potuz) potuz@potuz.net",
" *",
" *  This program is free software: you can redistribute it and/or modify",
" *  it under the terms of the GNU General Public License as published by",
" *  the Free Software Foundation, either version 3 of the License, or",
" *  (at your option) any later version.",
" *",
" *  This program is distributed in the hope that it will be useful,",
" *  but WITHOUT ANY WARRANTY; without even the implied warranty of",
" *  MERCHANTABILITY or FITNESS FOR A PARTICULAR PURPOSE.  See the",
" *  GNU General Public License for more details.",
" *",
" *  You should have received a copy of the GNU General Public License",
" *  along with this program.  If not, see <http://www.gnu.org/licenses/>.",
" */",
"",
"#pragma once",
"#include \"beacon-chain/validator.hpp\"",
"#include \"beacon_block.hpp\"",
"#include \"common/bitlist.hpp\"",
"#include \"common/bitvector.hpp\"",
"#include \"ssz/ssz_container.hpp\"",
"",
"namespace eth {",
"class BeaconState : public ssz::Container {",
"   private:",
"    UnixTime genesis_time_;",
"    Root genesis_validators_root_;",
"    Slot slot_;",
"    Fork fork_;",
"    BeaconBlockHeader latest_block_header_;",
"    VectorFixedSizedParts<Root, constants::SLOTS_PER_HISTORICAL_ROOT> block_roots_, state_roots_;",
"    ListFixedSizedParts<Root> historical_roots_{constants::HISTORICAL_ROOTS_LIMIT};",
"    Eth1Data eth1_data_;",
"    ListFixedSizedParts<Eth1Data> eth1_data_votes_{constants::EPOCHS_PER_ETH1_VOTING_PERIOD *",
"                                                   constants::SLOTS_PER_EPOCH};",
"    DepositIndex eth1_deposit_index_;",
"    ListFixedSizedParts<Validator> validators_{constants::VALIDATOR_REGISTRY_LIMIT};",
"    ListFixedSizedParts<Gwei> balances_{constants::VALIDATOR_REGISTRY_LIMIT};",
"    VectorFixedSizedParts<Bytes32, constants::EPOCHS_PER_HISTORICAL_VECTOR> randao_mixes_;",
"    VectorFixedSizedParts<Gwei, constants::EPOCHS_PER_SLASHINGS_VECTOR> slashings_;",
"    ListVariableSizedParts<PendingAttestation> previous_epoch_attestations_{constants::MAX_ATTESTATIONS *",
"                                                                            constants::SLOTS_PER_EPOCH},",
"        current_epoch_attestations_{constants::MAX_ATTESTATIONS * constants::SLOTS_PER_EPOCH};",
"    Bitvector<constants::JUSTIFICATION_BITS_LENGTH> justification_bits_;",
"    Checkpoint previous_justified_checkpoint_, current_justified_checkpoint_, finalized_checkpoint_;",
"",
"   public:",
"    constexpr UnixTime genesis_time() const { return genesis_time_; }",
"    constexpr const Root &genesis_validators_root() const { return genesis_validators_root_; }",
"    constexpr Slot slot() const { return slot_; }",
"    constexpr const Fork &fork() const { return fork_; }",
"    constexpr const BeaconBlockHeader &latest_block_header() const { return latest_block_header_; }",
"    constexpr const auto &block_roots() const { return block_roots_; }",
"    constexpr const auto &state_roots() const { return state_roots_; }",
"    constexpr const auto &historical_roots() const { return historical_roots_; }",
"    constexpr const Eth1Data &eth1_data() const { return eth1_data_; }",
"    constexpr const auto &eth1_data_votes() const { return eth1_data_votes_; }",
"    constexpr const auto &eth1_deposit_index() const { return eth1_deposit_index_; }",
"    constexpr const auto &validators() const { return validators_; }",
"    constexpr const auto &balances() const { return balances_; }",
"    constexpr const auto &slashings() const { return slashings_; }",
"    constexpr const auto &randao_mixes() const { return randao_mixes_; }",
"    constexpr const auto &previous_epoch_attestations() const { return previous_epoch_attestations_; }",
"    constexpr const auto &current_epoch_attestations() const { return current_epoch_attestations_; }",
"    constexpr const auto &justification_bits() const { return justification_bits_; }",
"    constexpr const Checkpoint &previous_justified_checkpoint() const { return previous_justified_checkpoint_; }",
"    constexpr const Checkpoint &current_justified_checkpoint() const { return current_justified_checkpoint_; }",
"    constexpr const Checkpoint &finalized_checkpoint() const { return finalized_checkpoint_; }",
"",
"    /*",
"                void genesis_time(UnixTime);",
"                void genesis_validators_root(Root);",
"                void slot(Slot);",
"                void fork(Fork);",
"                void latest_block_header(BeaconBlockHeader);",
"                void block_roots(<Root>);",
"                void state_roots(std::vector<Root>);",
"                void historical_roots(std::vector<Root>);",
"                void eth1_data(Eth1Data);",
"                void eth1_data_votes(std::vector<Eth1Data>);",
"                void eth1_deposit_index(DepositIndex);",
"                void validators(std::vector<Validator>);",
"                void balances(std::vector<Gwei>);",
"                void slashings(std::vector<Gwei>);",
"                void randao_mixes(std::vector<Bytes32>);",
"                void previous_epoch_attestations(std::vector<PendingAttestation>);",
"                void current_epoch_attestations(std::vector<PendingAttestation>);",
"                void justification_bits(std::vector<bool>);",
"                void previous_justified_checkpoint(Checkpoint);",
"                void current_justified_checkpoint(Checkpoint);",
"                void finalized_checkpoint(Checkpoint);",
"                */",
"",
"    std::vector<ssz::Chunk> hash_tree() const override {",
"        return hash_tree_({&genesis_time_,",
"                           &genesis_validators_root_,",
"                           &slot_,",
"                           &fork_,",
"                           &latest_block_header_,",
"                           &block_roots_,",
"                           &state_roots_,",
"                           &historical_roots_,",
"                           &eth1_data_,",
"                           &eth1_data_votes_,",
"                           &eth1_deposit_index_,",
"                           &validators_,",
"                           &balances_,",
"                           &randao_mixes_,",
"                           &slashings_,",
"                           &previous_epoch_attestations_,",
"                           &current_epoch_attestations_,",
"                           &justification_bits_,",
"                           &previous_justified_checkpoint_,",
"                           &current_justified_checkpoint_,",
"                           &finalized_checkpoint_});",
"    }",
"    BytesVector serialize() const override {",
"        return serialize_({&genesis_time_,",
"                           &genesis_validators_root_,",
"                           &slot_,",
"                           &fork_,",
"                           &latest_block_header_,",
"                           &block_roots_,",
"                           &state_roots_,",
"                           &historical_roots_,",
"                           &eth1_data_,",
"                           &eth1_data_votes_,",
"                           &eth1_deposit_index_,",
"                           &validators_,",
"                           &balances_,",
"                           &randao_mixes_,",
"                           &slashings_,",
"                           &previous_epoch_attestations_,",
"                           &current_epoch_attestations_,",
"                           &justification_bits_,",
"                           &previous_justified_checkpoint_,",
"                           &current_justified_checkpoint_,",
"                           &finalized_checkpoint_});",
"    }",
"    bool deserialize(ssz::SSZIterator it, ssz::SSZIterator end) override {",
"        return deserialize_(it, end,",
"                            {&genesis_time_,",
"                             &genesis_validators_root_,",
"                             &slot_,",
"                             &fork_,",
"                             &latest_block_header_,",
"                             &block_roots_,",
"                             &state_roots_,",
"                             &historical_roots_,",
"                             &eth1_data_,",
"                             &eth1_data_votes_,",
"                             &eth1_deposit_index_,",
"                             &validators_,",
"                             &balances_,",
"                             &randao_mixes_,",
"                             &slashings_,",
"                             &previous_epoch_attestations_,",
"                             &current_epoch_attestations_,",
"                             &justification_bits_,",
"                             &previous_justified_checkpoint_,",
"                             &current_justified_checkpoint_,",
"                             &finalized_checkpoint_});",
"    }",
"",
"    bool operator==(const BeaconState &) const = default;",
"",
"    YAML::Node encode() const override {",
"        return encode_({{\"genesis_time\", &genesis_time_},",
"                        {\"genesis_validators_root\", &genesis_validators_root_},",
"                        {\"slot\", &slot_},",
"                        {\"fork\", &fork_},",
"                        {\"latest_block_header\", &latest_block_header_},",
"                        {\"block_roots\", &block_roots_},",
"                        {\"state_roots\", &state_roots_},",
"                        {\"historical_roots\", &historical_roots_},",
"                        {\"eth1_data\", &eth1_data_},",
"                        {\"eth1_data_votes\", &eth1_data_votes_},",
"                        {\"eth1_deposit_index\", &eth1_deposit_index_},",
"                        {\"validators\", &validators_},",
"                        {\"balances\", &balances_},",
"                        {\"randao_mixes\", &randao_mixes_},",
"                        {\"slashings\", &slashings_},",
"                        {\"previous_epoch_attestations\", &previous_epoch_attestations_},",
"                        {\"current_epoch_attestations\", &current_epoch_attestations_},",
"                        {\"justification_bits\", &justification_bits_},",
"                        {\"previous_justified_checkpoint\", &previous_justified_checkpoint_},",
"                        {\"current_justified_checkpoint\", &current_justified_checkpoint_},",
"                        {\"finalized_checkpoint\", &finalized_checkpoint_}});",
"    }",
"",
"    bool decode(const YAML::Node &node) override {",
"        return decode_(node, {{\"genesis_time\", &genesis_time_},",
"                              {\"genesis_validators_root\", &genesis_validators_root_},",
"                              {\"slot\", &slot_},",
"                              {\"fork\", &fork_},",
"                              {\"latest_block_header\", &latest_block_header_},",
"                              {\"block_roots\", &block_roots_},",
"                              {\"state_roots\", &state_roots_},",
"                              {\"historical_roots\", &historical_roots_},",
"                              {\"eth1_data\", &eth1_data_},",
"                              {\"eth1_data_votes\", &eth1_data_votes_},",
"                              {\"eth1_deposit_index\", &eth1_deposit_index_},",
"                              {\"validators\", &validators_},",
"                              {\"balances\", &balances_},",
"                              {\"randao_mixes\", &randao_mixes_},",
"                              {\"slashings\", &slashings_},",
"                              {\"previous_epoch_attestations\", &previous_epoch_attestations_},",
"                              {\"current_epoch_attestations\", &current_epoch_attestations_},",
"                              {\"justification_bits\", &justification_bits_},",
"                              {\"previous_justified_checkpoint\", &previous_justified_checkpoint_},",
"                              {\"current_justified_checkpoint\", &current_justified_checkpoint_},",
"                              {\"finalized_checkpoint\", &finalized_checkpoint_}});",
"    }",
"};",
"}  // namespace eth"]

/-- The lines of beacon-chain/beacon_state.cpp:1-105. -/
def beaconStateCpp : List String := [
"/*  beacon_state.cpp",
" *",
" *  This file is part of Mammon.",
" *  mammon is a greedy and selfish ETH consensus client.",
" *",
" *  Copyright (c) 2021 - Reimundo Heluani (potuz) potuz@potuz.net",
" *",
" *  This program is free software: you can redistribute it and/or modify",
" *  it under the terms of the GNU General Public License as published by",
" *  the Free Software Foundation, either version 3 of the License, or",
" *  (at your option) any later version.",
" *",
" *  This program is distributed in the hope that it will be useful,",
" *  but WITHOUT ANY WARRANTY without even the implied warranty of",
" *  MERCHANTABILITY or FITNESS FOR A PARTICULAR PURPOSE.  See the",
" *  GNU General Public License for more details.",
" *",
" *  You should have received a copy of the GNU General Public License",
" *  along with this program.  If not, see <http://www.gnu.org/licenses/>.",
" */",
"",
"#include \"beacon_state.hpp\"",
"",
"namespace eth {",
"/*",
"void BeaconState::genesis_time(std::uint64_t val)",
"{",
"    genesis_time_ = val;",
"}",
"void BeaconState::genesis_validators_root(Root val)",
"{",
"    genesis_validators_root_ = std::move(val);",
"}",
"void BeaconState::slot(Slot val)",
"{",
"    slot_ = val;",
"}",
"void BeaconState::fork(Fork val)",
"{",
"    fork = std::move(val);",
"}",
"void BeaconState::latest_block_header(BeaconBlockHeader val)",
"{",
"    latest_block_header_ = std::move(val);",
"}",
"void BeaconState::blocks_roots(std::vector<Root> val)",
"{",
"    blocks_roots_ = std::move(val);",
"}",
"void BeaconState::state_roots(std::vector<Root> val)",
"{",
"    state_roots_ = std::move(val);",
"}",
"void BeaconState::eth1_data(Eth1Data val)",
"{",
"    eth1_data_ = std::move(val);",
"}",
"void BeaconState::eth1_data_votes(std::vector<Eth1Data> val)",
"{",
"    eth1_data_votes_ = std::move(val);",
"}",
"void BeaconState::validators(std::vector<Validator> val)",
"{",
"    validators_ = std::move(val);",
"}",
"void BeaconState::balances(std::vector<Gwei> val)",
"{",
"    balances_ = std::move(val);",
"}",
"void BeaconState::slashings(std::vector<Gwei> val)",
"{",
"    slashings_ = std::move(val);",
"}",
"void BeaconState::randao_mixes(std::vector<Bytes32> val)",
"{",
"    randao_mixes_ = std::move(val);",
"}",
"void BeaconState::previous_epoch_attestations(std::vector<PendingAttestation>",
"val)",
"{",
"    previous_epoch_attestations_ = std::move(val);",
"}",
"void BeaconState::current_epoch_attestations(std::vector<PendingAttestation>",
"val)",
"{",
"    current_epoch_attestations_ = std::move(val);",
"}",
"void BeaconState::justification_bits(std::vector<bool> val)",
"{",
"    justification_bits_ = std::move(val);",
"}",
"void BeaconState::previous_justified_checkpoint(Checkpoint val)",
"{",
"    previous_justified_checkpoint_ = std::move(val);",
"}",
"void BeaconState::current_justified_checkpoint(Checkpoint val)",
"{",
"    current_justified_checkpoint_ = std::move(val);",
"}",
"void BeaconState::finalized_checkpoint(Checkpoint val)",
"{",
"    finalized_checkpoint_ = std::move(val);",
"}",
"*/",
"}"]

/-- The lines of config/mainnet.hpp.in:1-93. -/
def mainnet : List String := [
"/*  mainnet.hpp",
" *",
" *  This file is part of Mammon.",
" *  mammon is a greedy and selfish ETH consensus client.",
" *",
" *  Copyright (c) 2021 - Reimundo Heluani (potuz) potuz@potuz.net",
" *",
" *  This program is free software: you can redistribute it and/or modify",
" *  it under the terms of the GNU General Public License as published by",
" *  the Free Software Foundation, either version 3 of the License, or",
" *  (at your option) any later version.",
" *",
" *  This program is distributed in the hope that it will be useful,",
" *  but WITHOUT ANY WARRANTY; without even the implied warranty of",
" *  MERCHANTABILITY or FITNESS FOR A PARTICULAR PURPOSE.  See the",
" *  GNU General Public License for more details.",
" *",
" *  You should have received a copy of the GNU General Public License",
" *  along with this program.  If not, see <http://www.gnu.org/licenses/>.",
" */",
"",
"#pragma once",
"",
"#include \"common/slot.hpp\"",
"#include <cstdint>",
"",
"using namespace std::string_literals;",
"namespace constants {",
"",
"constexpr std::uint64_t MIN_GENESIS_ACTIVE_VALIDATOR_COUNT = 16384;",
"constexpr std::uint64_t MIN_GENESIS_TIME = 1606824000;",
"constexpr eth::Version GENESIS_FORK_VERSION{0x00000000};",
"constexpr std::uint64_t GENESIS_DELAY = 604800;",
"",
"// ALTAIR_FORK_VERSION: 0x01000001",
"// ALTAIR_FORK_EPOCH: 18446744073709551615",
"// MERGE_FORK_VERSION: 0x02000001",
"// MERGE_FORK_EPOCH: 18446744073709551615",
"// SHARDING_FORK_VERSION: 0x03000001",
"// SHARDING_FORK_EPOCH: 18446744073709551615",
"// MIN_ANCHOR_POW_BLOCK_DIFFICULTY: 4294967296",
"",
"constexpr std::uint64_t SECONDS_PER_SLOT = 12;",
"constexpr std::uint64_t SECONDS_PER_ETH1_BLOCK = 14;",
"constexpr std::uint64_t MIN_VALIDATOR_WITHDRAWABILITY_DELAY = 256;",
"constexpr std::uint64_t SHARD_COMMITTEE_PERIOD = 256;",
"constexpr std::uint64_t ETH1_FOLLOW_DISTANCE = 2048;",
"",
"constexpr eth::Gwei EJECTION_BALANCE = 16000000000;",
"constexpr std::uint64_t MIN_PER_EPOCH_CHURN_LIMIT = 4;",
"constexpr std::uint64_t CHURN_LIMIT_QUOTIENT = 65536;",
"",
"constexpr int DEPOSIT_CHAIN_ID = 1;",
"constexpr int DEPOSIT_NETWORK_ID = 1;",
"constexpr eth::Eth1Address DEPOSIT_CONTRACT_ADDRESS{",
"    \"0x00000000219ab540356cBB839Cbe05303d7705Fa\"};",
"",
"constexpr auto TEST_VECTORS_PATH = \"@CMAKE_SOURCE_DIR@/eth2.0-spec-tests/tests/mainnet/phase0/ssz_static/\";",
"constexpr auto TEST_VECTORS_GENERAL_PATH = \"@CMAKE_SOURCE_DIR@/eth2.0-spec-tests/tests/general/phase0/ssz_generic/\";",
"",
"constexpr uint MAX_COMMITTEES_PER_SLOT = 64;",
"constexpr uint TARGET_COMMITTEE_SIZE = 128;",
"constexpr uint MAX_VALIDATORS_PER_COMMITTEE = 2048;",
"constexpr uint SHUFFLE_ROUND_COUNT = 90;",
"constexpr uint HYSTERESIS_QUOTIENT = 4;",
"constexpr uint HYSTERESIS_DOWNWARD_MULTIPLIER = 1;",
"constexpr uint HYSTERESIS_UPWARD_MULTIPLIER = 5;",
"constexpr uint SAFE_SLOTS_TO_UPDATE_JUSTIFIED = 8;",
"constexpr uint SLOTS_PER_EPOCH = 32;",
"constexpr uint MIN_SEED_LOOKAHEAD = 1;",
"constexpr uint MAX_SEED_LOOKAHEAD = 4;",
"constexpr uint EPOCHS_PER_ETH1_VOTING_PERIOD = 64;",
"constexpr uint SLOTS_PER_HISTORICAL_ROOT = 8192;",
"constexpr uint MIN_EPOCHS_TO_INACTIVITY_PENALTY = 4;",
"constexpr uint EPOCHS_PER_HISTORICAL_VECTOR = 65536;",
"constexpr uint EPOCHS_PER_SLASHINGS_VECTOR = 8192;",
"constexpr uint64_t HISTORICAL_ROOTS_LIMIT = 16777216;",
"constexpr uint64_t VALIDATOR_REGISTRY_LIMIT = 1099511627776;",
"constexpr uint BASE_REWARD_FACTOR = 64;",
"constexpr uint WHISTLEBLOWER_REWARD_QUOTIENT = 512;",
"constexpr uint PROPOSER_REWARD_QUOTIENT = 8;",
"constexpr uint64_t INACTIVITY_PENALTY_QUOTIENT = 67108864;",
"constexpr uint MIN_SLASHING_PENALTY_QUOTIENT = 128;",
"constexpr uint PROPORTIONAL_SLASHING_MULTIPLIER = 1;",
"constexpr uint MAX_PROPOSER_SLASHINGS = 16;",
"constexpr uint MAX_ATTESTER_SLASHINGS = 2;",
"constexpr uint MAX_ATTESTATIONS = 128;",
"constexpr uint MAX_DEPOSITS = 16;",
"constexpr uint MAX_VOLUNTARY_EXITS = 16;",
"",
"constexpr uint64_t MAX_BYTES_PER_TRANSACTION = 1048576;",
"",
"}; // namespace constants"]

/-- The lines of config/minimal.hpp.in:1-92. -/
def minimal : List String := [
"/*  minimal.hpp",
" *",
" *  This file is part of Mammon.",
" *  mammon is a greedy and selfish ETH consensus client.",
" *",
" *  Copyright (c) 2021 - Reimundo Heluani (potuz) potuz@potuz.net",
" *",
" *  This program is free software: you can redistribute it and/or modify",
" *  it under the terms of the GNU General Public License as published by",
" *  the Free Software Foundation, either version 3 of the License, or",
" *  (at your option) any later version.",
" *",
" *  This program is distributed in the hope that it will be useful,",
" *  but WITHOUT ANY WARRANTY; without even the implied warranty of",
" *  MERCHANTABILITY or FITNESS FOR A PARTICULAR PURPOSE.  See the",
" *  GNU General Public License for more details.",
" *",
" *  You should have received a copy of the GNU General Public License",
" *  along with this program.  If not, see <http://www.gnu.org/licenses/>.",
" */",
"",
"#pragma once",
"",
"#include \"common/slot.hpp\"",
"#include <cstdint>",
"",
"using namespace std::string_literals;",
"",
"namespace constants {",
"",
"constexpr std::uint64_t MIN_GENESIS_ACTIVE_VALIDATOR_COUNT = 64;",
"constexpr std::uint64_t MIN_GENESIS_TIME = 1578009600;",
"constexpr const eth::Version GENESIS_FORK_VERSION{0x00000001};",
"constexpr std::uint64_t GENESIS_DELAY = 300;",
"",
"// ALTAIR_FORK_VERSION: 0x01000001",
"// ALTAIR_FORK_EPOCH: 18446744073709551615",
"// MERGE_FORK_VERSION: 0x02000001",
"// MERGE_FORK_EPOCH: 18446744073709551615",
"// SHARDING_FORK_VERSION: 0x03000001",
"// SHARDING_FORK_EPOCH: 18446744073709551615",
"// MIN_ANCHOR_POW_BLOCK_DIFFICULTY: 4294967296",
"",
"constexpr std::uint64_t SECONDS_PER_SLOT = 6;",
"constexpr std::uint64_t SECONDS_PER_ETH1_BLOCK = 14;",
"constexpr std::uint64_t MIN_VALIDATOR_WITHDRAWABILITY_DELAY = 256;",
"constexpr std::uint64_t SHARD_COMMITTEE_PERIOD = 64;",
"constexpr std::uint64_t ETH1_FOLLOW_DISTANCE = 16;",
"",
"constexpr const eth::Gwei EJECTION_BALANCE{16000000000};",
"constexpr std::uint64_t MIN_PER_EPOCH_CHURN_LIMIT = 4;",
"constexpr std::uint64_t CHURN_LIMIT_QUOTIENT = 65536;",
"",
"constexpr int DEPOSIT_CHAIN_ID = 5;",
"constexpr int DEPOSIT_NETWORK_ID = 5;",
"constexpr eth::Eth1Address DEPOSIT_CONTRACT_ADDRESS {",
"    \"0x1234567890123456789012345678901234567890\"};",
"",
"constexpr auto TEST_VECTORS_PATH = \"@CMAKE_SOURCE_DIR@/eth2.0-spec-tests/tests/minimal/phase0/ssz_static/\";",
"constexpr auto TEST_VECTORS_GENERAL_PATH = \"@CMAKE_SOURCE_DIR@/eth2.0-spec-tests/tests/general/phase0/ssz_generic/\";",
"",
"constexpr uint MAX_COMMITTEES_PER_SLOT = 4;",
"constexpr uint TARGET_COMMITTEE_SIZE = 4;",
"constexpr uint MAX_VALIDATORS_PER_COMMITTEE = 2048;",
"constexpr uint SHUFFLE_ROUND_COUNT = 10;",
"constexpr uint HYSTERESIS_QUOTIENT = 4;",
"constexpr uint HYSTERESIS_DOWNWARD_MULTIPLIER = 1;",
"constexpr uint HYSTERESIS_UPWARD_MULTIPLIER = 5;",
"constexpr uint SAFE_SLOTS_TO_UPDATE_JUSTIFIED = 2;",
"constexpr uint SLOTS_PER_EPOCH = 8;",
"constexpr uint MIN_SEED_LOOKAHEAD = 1;",
"constexpr uint MAX_SEED_LOOKAHEAD = 4;",
"constexpr uint EPOCHS_PER_ETH1_VOTING_PERIOD = 4;",
"constexpr uint SLOTS_PER_HISTORICAL_ROOT = 64;",
"constexpr uint MIN_EPOCHS_TO_INACTIVITY_PENALTY = 4;",
"constexpr uint EPOCHS_PER_HISTORICAL_VECTOR = 64;",
"constexpr uint EPOCHS_PER_SLASHINGS_VECTOR = 64;",
"constexpr uint64_t HISTORICAL_ROOTS_LIMIT = 16777216;",
"constexpr uint64_t VALIDATOR_REGISTRY_LIMIT = 1099511627776;",
"constexpr uint BASE_REWARD_FACTOR = 64;",
"constexpr uint WHISTLEBLOWER_REWARD_QUOTIENT = 512;",
"constexpr uint PROPOSER_REWARD_QUOTIENT = 8;",
"constexpr uint64_t INACTIVITY_PENALTY_QUOTIENT = 33554432;",
"constexpr uint MIN_SLASHING_PENALTY_QUOTIENT = 64;",
"constexpr uint PROPORTIONAL_SLASHING_MULTIPLIER = 2;",
"constexpr uint MAX_PROPOSER_SLASHINGS = 16;",
"constexpr uint MAX_ATTESTER_SLASHINGS = 2;",
"constexpr uint MAX_ATTESTATIONS = 128;",
"constexpr uint MAX_DEPOSITS = 16;",
"constexpr uint MAX_VOLUNTARY_EXITS = 16;",
"",
"}; // namespace constants"]

/-- The lines of config/constants.hpp:1-37. -/
def constants : List String := [
"/*  constants.hpp",
" *",
" *  This file is part of Mammon.",
" *  mammon is a greedy and selfish ETH consensus client.",
" *",
" *  Copyright (c) 2021 - Reimundo Heluani (potuz) potuz@potuz.net",
" *",
" *  This program is free software: you can redistribute it and/or modify",
" *  it under the terms of the GNU General Public License as published by",
" *  the Free Software Foundation, either version 3 of the License, or",
" *  (at your option) any later version.",
" *",
" *  This program is distributed in the hope that it will be useful,",
" *  but WITHOUT ANY WARRANTY; without even the implied warranty of",
" *  MERCHANTABILITY or FITNESS FOR A PARTICULAR PURPOSE.  See the",
" *  GNU General Public License for more details.",
" *",
" *  You should have received a copy of the GNU General Public License",
" *  along with this program.  If not, see <http://www.gnu.org/licenses/>.",
" */",
"",
"#pragma once",
"",
"#include \"common/slot.hpp\"",
"",
"namespace constants {",
"constexpr auto GENESIS_SLOT = eth::Slot{0};",
"constexpr auto GENESIS_EPOCH = eth::Epoch{0};",
"constexpr auto FAR_FUTURE_EPOCH = eth::Epoch{0xffffffffffffffffull};",
"constexpr auto BASE_REWARDS_PER_EPOCH = 0x4ull;",
"constexpr auto DEPOSIT_CONTRACT_TREE_DEPTH = 0X20ull;",
"constexpr auto JUSTIFICATION_BITS_LENGTH = 0x4ull;",
"constexpr auto MAX_EFFECTIVE_BALANCE = eth::Gwei{32000000000};",
"constexpr auto MIN_DEPOSIT_AMOUNT = eth::Gwei{1000000000};",
"constexpr auto EFFECTIVE_BALANCE_INCREMENT = eth::Gwei{1000000000};",
"constexpr uint MIN_ATTESTATION_INCLUSION_DELAY = 1;",
"} // namespace constants"]

/-- The lines of ssz/ssz.hpp:1-34. -/
def ssz : List String := [
"/*  ssz.hpp",
" *",
" *  This file is part of Mammon.",
" *  mammon is a greedy and selfish ETH consensus client.",
" *",
" *  Copyright (c) 2021 - Reimundo Heluani (potuz) potuz@potuz.net",
" *",
" *  This program is free software: you can redistribute it and/or modify",
" *  it under the terms of the GNU General Public License as published by",
" *  the Free Software Foundation, either version 3 of the License, or",
" *  (at your option) any later version.",
" *",
" *  This program is distributed in the hope that it will be useful,",
" *  but WITHOUT ANY WARRANTY; without even the implied warranty of",
" *  MERCHANTABILITY or FITNESS FOR A PARTICULAR PURPOSE.  See the",
" *  GNU General Public License for more details.",
" *",
" *  You should have received a copy of the GNU General Public License",
" *  along with this program.  If not, see <http://www.gnu.org/licenses/>.",
" */",
"",
"#pragma once",
"#include <array>",
"#include <cstdint>",
"",
"namespace constants {",
"constexpr std::uint32_t BYTES_PER_LENGTH_OFFSET = 4;",
"constexpr unsigned int BYTES_PER_CHUNK = 32;",
"constexpr unsigned int BITS_PER_BYTE = 8;",
"}  // namespace constants",
"",
"namespace ssz {",
"using Chunk = std::array<std::uint8_t, constants::BYTES_PER_CHUNK>;",
"}"]

/-- The lines of helpers/math.hpp:1-62. -/
def math : List String := [
"/*  math.hpp",
" *",
" *  This file is part of Mammon.",
" *  mammon is a greedy and selfish ETH consensus client.",
" *",
" *  Copyright (c) 2021 - Reimundo Heluani (potuz) potuz@potuz.net",
" *",
" *  This program is free software: you can redistribute it and/or modify",
" *  it under the terms of the GNU General Public License as published by",
" *  the Free Software Foundation, either version 3 of the License, or",
" *  (at your option) any later version.",
" *",
" *  This program is distributed in the hope that it will be useful,",
" *  but WITHOUT ANY WARRANTY; without even the implied warranty of",
" *  MERCHANTABILITY or FITNESS FOR A PARTICULAR PURPOSE.  See the",
" *  GNU General Public License for more details.",
" *",
" *  You should have received a copy of the GNU General Public License",
" *  along with this program.  If not, see <http://www.gnu.org/licenses/>.",
" */",
"",
"#pragma once",
"#include <algorithm>",
"#include <array>",
"#include <bit>",
"#include <climits>",
"#include <cmath>",
"#include <concepts>",
"#include <utility>",
"",
"namespace helpers {",
"",
"template <typename T>",
"constexpr T sqrt_helper(T x, T lo, T hi) {",
"    if (lo == hi) return lo;",
"",
"    const T mid = (lo + hi + 1) / 2;",
"    if (x / mid < mid)",
"        return sqrt_helper<T>(x, lo, mid - 1);",
"    else",
"        return sqrt_helper(x, mid, hi);",
"}",
"",
"template <typename T>",
"constexpr T ct_sqrt(T x) {",
"    return sqrt_helper<T>(x, 0, x / 2 + 1);",
"}",
"",
"template <typename T>",
"T integer_squareroot(T x) {",
"    T r = (T)std::sqrt((double)x);",
"    T sqrt_max = ct_sqrt(std::numeric_limits<T>::max());",
"",
"    while (r < sqrt_max && r * r < x) r++;",
"    while (r > sqrt_max || r * r > x) r--;",
"",
"    return r;",
"}",
"",
"int log2ceil(std::unsigned_integral auto n) { return n ? CHAR_BIT * sizeof(n) - std::countl_zero(n - 1) : 0; }",
"",
"}  // namespace helpers"]

/-- The lines of ssz/ssz_container.cpp:1-137. -/
def containerCpp : List String := [
"/*  ssz_container.cpp",
" *",
" *  This file is part of Mammon.",
" *  mammon is a greedy and selfish ETH consensus client.",
" *",
" *  Copyright (c) 2021 - Reimundo Heluani (potuz) potuz@potuz.net",
" *",
" *  This program is free software: you can redistribute it and/or modify",
" *  it under the terms of the GNU General Public License as published by",
" *  the Free Software Foundation, either version 3 of the License, or",
" *  (at your option) any later version.",
" *",
" *  This program is distributed in the hope that it will be useful,",
" *  but WITHOUT ANY WARRANTY; without even the implied warranty of",
" *  MERCHANTABILITY or FITNESS FOR A PARTICULAR PURPOSE.  See the",
" *  GNU General Public License for more details.",
" *",
" *  You should have received a copy of the GNU General Public License",
" *  along with this program.  If not, see <http://www.gnu.org/licenses/>.",
" */",
"",
"#include \"ssz_container.hpp\"",
"",
"#include <algorithm>",
"#include <cstdint>",
"#include <stdexcept>",
"",
"#include \"common/bytes.hpp\"",
"#include \"helpers/bytes_to_int.hpp\"",
"#include \"ssz/hashtree.hpp\"",
"#include \"ssz/ssz.hpp\"",
"",
"template <typename T>",
"std::uint32_t compute_fixed_length(const std::vector<T *> &parts) {",
"    std::uint32_t ret = 0;",
"    auto sum_lengths = [&ret](const T *part) {",
"        if (part->get_ssz_size() == 0) {",
"            ret += constants::BYTES_PER_LENGTH_OFFSET;",
"        } else {",
"            ret += std::uint32_t(part->get_ssz_size());",
"        }",
"    };",
"    std::for_each(parts.cbegin(), parts.cend(), sum_lengths);",
"    return ret;",
"}",
"",
"namespace ssz {",
"std::vector<std::uint8_t> Container::serialize_(const std::vector<const Container *> &parts) {",
"    // Check if we are one of the basic types",
"    if (parts.size() == 0) return {};",
"",
"    // Compute the length of the fixed sized parts;",
"    auto fixed_length = compute_fixed_length(parts);",
"",
"    // Insert the fixed parts and the offsets",
"    std::vector<std::uint8_t> ret, variable_part;",
"    for (auto *part : parts) {",
"        auto part_ssz = part->serialize();",
"        if (part->get_ssz_size() == 0) {",
"            eth::Bytes4 offset(fixed_length);",
"            ret.insert(ret.end(), offset.begin(), offset.end());",
"",
"            fixed_length += std::uint32_t(part_ssz.size());",
"            variable_part.insert(variable_part.end(), part_ssz.begin(), part_ssz.end());",
"        } else {",
"            ret.insert(ret.end(), part_ssz.begin(), part_ssz.end());",
"        }",
"    }",
"    ret.insert(ret.end(), variable_part.begin(), variable_part.end());",
"    return ret;",
"}",
"",
"bool Container::deserialize_(SSZIterator it, SSZIterator end, const std::vector<Container *> &parts) {",
"    auto fixed_length = compute_fixed_length(parts);",
"    SSZIterator begin = it;",
"    // We are hardcoding BYTES_PER_LENGTH_OFFSET = 4 here",
"    std::uint32_t last_offset = 0;",
"    Container *last_variable_part = nullptr;",
"",
"    for (auto *part : parts) {",
"        auto part_size = part->get_ssz_size();",
"        if (part_size) {",
"            if (std::distance(it, end) < part_size) return false;",
"            if (!part->deserialize(it, it + part_size))  // NOLINT",
"                return false;",
"            it += part_size;  // NOLINT",
"        } else {",
"            if (std::distance(it, end) < constants::BYTES_PER_LENGTH_OFFSET) return false;",
"            auto current_offset = helpers::to_integer_little_endian<std::uint32_t>(&*it);",
"            if (std::distance(begin, end) < current_offset) return false;",
"",
"            if (last_offset) {",
"                if (current_offset < last_offset) return false;",
"                if (!last_variable_part->deserialize(begin + last_offset, begin + current_offset)) return false;",
"            } else if (current_offset != fixed_length)",
"                return false;",
"",
"            last_offset = current_offset;",
"            last_variable_part = part;",
"            it += constants::BYTES_PER_LENGTH_OFFSET;",
"        }",
"    }",
"    if (last_offset)",
"        if (!last_variable_part->deserialize(begin + last_offset, end)) return false;",
"    return true;",
"}",
"",
"std::vector<Chunk> Container::hash_tree() const {",
"    HashTree hash_tree{this->serialize()};",
"    return hash_tree.hash_tree();",
"}",
"",
"std::vector<Chunk> Container::hash_tree_(const std::vector<const Container *> &parts) {",
"    // This will throw when accessing hash_tree_root",
"    if (parts.size() == 0) return {};",
"",
"    std::vector<Chunk> chunks;",
"    chunks.reserve(parts.size());",
"    std::transform(",
"        parts.begin(), parts.end(), std::back_inserter(chunks),",
"        [](const Container *part) -> auto { return part->hash_tree_root(); });",
"",
"    HashTree hash_tree{chunks};",
"    return hash_tree.hash_tree();",
"}",
"",
"bool Container::decode_(const YAML::Node &node, std::vector<Part> parts) {",
"    return std::all_of(parts.begin(), parts.end(),",
"                       [&node](Part part) { return part.second->decode(node[part.first]); });",
"}",
"",
"YAML::Node Container::encode_(const std::vector<ConstPart> &parts) {",
"    YAML::Node node;",
"    for (const auto &part : parts) node[part.first] = part.second->encode();",
"    return node;",
"}",
"}  // namespace ssz"]

/-- The lines of ssz/hashtree.cpp:1-133. -/
def hashtreeCpp : List String := [
"/*  hashtree.cpp",
" *",
" *  This file is part of Mammon.",
" *  mammon is a greedy and selfish ETH consensus client.",
" *",
" *  Copyright (c) 2021 - Reimundo Heluani (potuz) potuz@potuz.net",
" *",
" *  This program is free software: you can redistribute it and/or modify",
" *  it under the terms of the GNU General Public License as published by",
" *  the Free Software Foundation, either version 3 of the License, or",
" *  (at your option) any later version.",
" *",
" *  This program is distributed in the hope that it will be useful,",
" *  but WITHOUT ANY WARRANTY; without even the implied warranty of",
" *  MERCHANTABILITY or FITNESS FOR A PARTICULAR PURPOSE.  See the",
" *  GNU General Public License for more details.",
" *",
" *  You should have received a copy of the GNU General Public License",
" *  along with this program.  If not, see <http://www.gnu.org/licenses/>.",
" */",
"",
"#include \"ssz/hashtree.hpp\"",
"",
"#include <stdexcept>",
"",
"#include \"common/bytes.hpp\"",
"#include \"helpers/math.hpp\"",
"#include \"ssz/hasher.hpp\"",
"#include \"ssz/ssz.hpp\"",
"",
"namespace {",
"using namespace ssz;",
"Chunk hash_2_chunks(const Chunk& first, const Chunk& second, const Hasher& hasher) {",
"    std::array<std::uint8_t, 2 * constants::BYTES_PER_CHUNK> sum;  // NOLINT",
"    std::copy(first.begin(), first.end(), sum.begin());",
"    std::copy(second.begin(), second.end(), sum.begin() + constants::BYTES_PER_CHUNK);",
"    Chunk ret;",
"    hasher.hash_64b_blocks(ret.data(), sum.data(), 1);",
"    return ret;",
"}",
"// clang-format off",
"const auto ZERO_HASH_DEPTH{42};",
"constexpr Chunk zero_hash{};",
"",
"template <std::size_t N> requires(N > 0)",
"auto zero_hash_array_helper() {",
"    std::array<Chunk, N> ret; // NOLINT",
"    ret[0] = zero_hash;",
"    ssz::Hasher hasher{};",
"    for (auto it = ret.begin() + 1; it != ret.end(); ++it) *it = hash_2_chunks(*std::prev(it), *std::prev(it), hasher);",
"    return ret;",
"}",
"// clang-format on",
"",
"const auto zero_hash_array = zero_hash_array_helper<ZERO_HASH_DEPTH>();",
"",
"/**",
" *   \\brief Packs a vector of bytes into chunks of 32 bytes",
" *   \\details If the length of vec is not a multiple of 32, it pads with null bytes in the end",
" *   \\param[in] vec  a vector of std::uint8_ts.",
" */",
"std::vector<Chunk> pack_and_pad(const std::vector<std::uint8_t>& vec) {",
"    std::vector<Chunk> ret{};",
"    if (vec.empty())",
"        ret.push_back(zero_hash);",
"    else {",
"        ret.reserve((vec.size() + sizeof(Chunk) - 1) / sizeof(Chunk));",
"        for (auto it = vec.cbegin(); it < vec.end(); it += constants::BYTES_PER_CHUNK) {",
"            Chunk chunk{};",
"            std::copy(it, std::min(it + constants::BYTES_PER_CHUNK, vec.end()), chunk.begin());",
"            ret.push_back(chunk);",
"        }",
"    }",
"    return ret;",
"}",
"",
"void merkleize(const std::vector<Chunk>& vec, std::vector<Chunk>& hash_tree, std::size_t limit, const Hasher& hasher) {",
"    auto depth = helpers::log2ceil(limit);",
"    auto first = hash_tree.begin();",
"    auto last = first + (vec.size() + 1) / 2;  // NOLINT",
"    if (vec.size() > 1) hasher.hash_64b_blocks(hash_tree[0].begin(), vec[0].begin(), vec.size() / 2);",
"    if (vec.size() % 2) *std::prev(last) = hash_2_chunks(vec.back(), zero_hash, hasher);",
"    auto dist = std::distance(first, last);",
"    auto height = 1;",
"    while (dist > 1) {",
"        hasher.hash_64b_blocks((*last).begin(), (*first).begin(), dist / 2);",
"        first = last;",
"        last += (dist + 1) / 2;",
"        // NOLINTNEXTLINE ",
"        if (dist % 2) *std::prev(last) = hash_2_chunks(*std::prev(first), zero_hash_array[height], hasher);",
"        height++;",
"        dist = std::distance(first, last);",
"    }",
"    while (height < depth) {",
"        *last = hash_2_chunks(*std::prev(last), zero_hash_array[height], hasher);  // NOLINT",
"        last++;",
"        height++;",
"    }",
"    hash_tree.resize(std::distance(hash_tree.begin(), last));",
"}",
"",
"}  // namespace",
"",
"namespace ssz {",
"#ifndef CUSTOM_HASHER",
"const auto HashTree::hasher = Hasher{};",
"#endif",
"HashTree::HashTree(const std::vector<Chunk>& chunks, std::uint64_t limit) {",
"    // return early if only one chunk:",
"    if (limit <= 1 && chunks.size() == 1)",
"        hash_tree_ = chunks;",
"    else {",
"        if (chunks.empty()) throw std::out_of_range(\"empty chunks is not allowed\");",
"        auto effective_depth = helpers::log2ceil(chunks.size());",
"        auto depth = (limit == 0) ? effective_depth : helpers::log2ceil(limit);",
"        auto cache_size = depth - effective_depth + std::bit_ceil(chunks.size()) - 1;",
"        // if limit > chunk_count assume it's a list and reserve for the mix_in",
"        if (depth > effective_depth) cache_size++;",
"        hash_tree_.resize(std::max(cache_size, 1ul));",
"",
"        if (limit == 0) limit = std::bit_ceil(chunks.size());",
"        merkleize(chunks, hash_tree_, limit, hasher);",
"    }",
"}",
"",
"void HashTree::mix_in(std::size_t length) {",
"    auto length_bytes = eth::Bytes32(length);",
"    hash_tree_.push_back(hash_2_chunks(this->hash_tree_root(), length_bytes.to_array(), hasher));",
"}",
"",
"HashTree::HashTree(const std::vector<std::uint8_t>& vec, std::uint64_t limit) : HashTree{pack_and_pad(vec), limit} {};",
"",
"}  // namespace ssz"]

/-- The lines of common/bitlist.cpp:1-101. -/
def bitlistCpp : List String := [
"/*  bitlist.cpp",
" *",
" *  This file is part of Mammon.",
" *  mammon is a greedy and selfish ETH consensus client.",
" *",
" *  Copyright (c) 2021 - Reimundo Heluani (potuz) potuz@potuz.net",
" *",
" *  This program is free software: you can redistribute it and/or modify",
" *  it under the terms of the GNU General Public License as published by",
" *  the Free Software Foundation, either version 3 of the License, or",
" *  (at your option) any later version.",
" *",
" *  This program is distributed in the hope that it will be useful,",
" *  but WITHOUT ANY WARRANTY; without even the implied warranty of",
" *  MERCHANTABILITY or FITNESS FOR A PARTICULAR PURPOSE.  See the",
" *  GNU General Public License for more details.",
" *",
" *  You should have received a copy of the GNU General Public License",
" *  along with this program.  If not, see <http://www.gnu.org/licenses/>.",
" */",
"",
"#include \"bitlist.hpp\"",
"",
"#include <bit>",
"#include <cstdint>",
"#include <iomanip>",
"#include <iostream>",
"#include <sstream>",
"",
"#include \"config.hpp\"",
"#include \"helpers/bytes_to_int.hpp\"",
"#include \"ssz/hashtree.hpp\"",
"",
"namespace eth {",
"std::vector<ssz::Chunk> Bitlist::hash_tree() const {",
"    using namespace constants;",
"    std::vector<std::uint8_t> ret((m_arr.size() + BITS_PER_BYTE - 1) / BITS_PER_BYTE, 0);",
"    for (int i = 0; i < m_arr.size(); ++i) ret[i / constants::BITS_PER_BYTE] |= m_arr[i] << (i % BITS_PER_BYTE);",
"    auto limit = (limit_ + BITS_PER_BYTE * BYTES_PER_CHUNK - 1) / (BITS_PER_BYTE * BYTES_PER_CHUNK);",
"    ssz::HashTree ht{ret, limit};",
"    ht.mix_in(m_arr.size());",
"    return ht.hash_tree();",
"}",
"",
"std::vector<std::uint8_t> Bitlist::serialize() const {",
"    std::vector<std::uint8_t> ret(m_arr.size() / constants::BITS_PER_BYTE + 1, 0);",
"    for (int i = 0; i < m_arr.size(); ++i)",
"        ret[i / constants::BITS_PER_BYTE] |= m_arr[i] << (i % constants::BITS_PER_BYTE);",
"    ret.back() |= 1 << (m_arr.size() % constants::BITS_PER_BYTE);",
"    return ret;",
"}",
"bool Bitlist::deserialize(ssz::SSZIterator it, ssz::SSZIterator end) {",
"    auto last = end;",
"    --last;",
"    int msb = std::countl_zero(*last);",
"    m_arr.clear();",
"",
"    for (auto i = it; i != last; ++i)",
"        for (auto j = 0; j < constants::BITS_PER_BYTE; ++j) m_arr.push_back((*i >> j) & 1);",
"",
"    for (auto i = 0; i < constants::BITS_PER_BYTE - 1 - msb; ++i) m_arr.push_back((*last >> i) & 1);",
"    return true;",
"}",
"",
"// Does not check for errors, assumes strings is 0x valid hex bytes! In",
"// particular even # of chars",
"void Bitlist::from_hexstring(const std::string& str) {",
"    if (!str.starts_with(\"0x\")) throw std::invalid_argument(\"string not prepended with 0x\");",
"    if (str.length() % 2 != 0) throw std::invalid_argument(\"string of odd length\");",
"",
"    std::uint8_t buffer = 0;",
"    std::vector<std::uint8_t> hex;",
"    for (int offset = 2; offset < str.length(); offset += 2) {",
"        buffer = (helpers::hextoint(str[offset]) << 4) + helpers::hextoint(str[offset + 1]);",
"        hex.push_back(buffer);",
"    }",
"    deserialize(hex.begin(), hex.end());",
"}",
"",
"std::string Bitlist::to_string() const {",
"    std::stringstream os;",
"    std::ios_base::fmtflags save = std::cout.flags();",
"    auto serial = this->serialize();",
"    os << \"0x\";",
"    for (auto i = serial.cbegin(); i != serial.cend(); ++i) os << std::setfill('0') << std::setw(2) << std::hex << *i;",
"    std::cout.flags(save);",
"    return os.str();",
"};",
"",
"YAML::Node Bitlist::encode() const {",
"    auto str = this->to_string();",
"    return YAML::convert<std::string>::encode(str);",
"}",
"bool Bitlist::decode(const YAML::Node& node) {",
"    std::string str;",
"    if (!YAML::convert<std::string>::decode(node, str)) return false;",
"    this->from_hexstring(str);",
"    return true;",
"}",
"",
"}  // namespace eth"]

/-- The lines of common/bitvector.hpp:1-104. -/
def bitvector : List String := [
"/*  bitvector.hpp",
" *",
" *  This file is part of sszpp.",
" *  sszpp is C++ implementation of the \"Simple Serialize\" specification.",
" *  https://github.com/ethereum/eth2.0-specs/tree/dev/ssz",
" *",
" *  Copyright (c) 2021 - Reimundo Heluani (potuz) potuz@potuz.net",
" *",
" *  This program is free software: you can redistribute it and/or modify",
" *  it under the terms of the GNU General Public License as published by",
" *  the Free Software Foundation, either version 3 of the License, or",
" *  (at your option) any later version.",
" *",
" *  This program is distributed in the hope that it will be useful,",
" *  but WITHOUT ANY WARRANTY; without even the implied warranty of",
" *  MERCHANTABILITY or FITNESS FOR A PARTICULAR PURPOSE.  See the",
" *  GNU General Public License for more details.",
" *",
" *  You should have received a copy of the GNU General Public License",
" *  along with this program.  If not, see <http://www.gnu.org/licenses/>.",
" */",
"",
"#pragma once",
"#include <array>",
"#include <cassert>",
"#include <iomanip>",
"#include <iostream>",
"",
"#include \"common/bytes.hpp\"",
"#include \"ssz/ssz.hpp\"",
"#include \"ssz/ssz_container.hpp\"",
"#include \"yaml-cpp/yaml.h\"",
"",
"namespace eth {",
"template <unsigned N>",
"class Bitvector : public ssz::Container {",
"   private:",
"    std::array<bool, N> m_arr;",
"",
"   public:",
"    static constexpr std::size_t ssz_size = (N + constants::BITS_PER_BYTE - 1) / constants::BITS_PER_BYTE;",
"    std::size_t get_ssz_size() const override { return ssz_size; }",
"",
"    Bitvector() = default;",
"    explicit constexpr Bitvector(std::array<bool, N> vec) : m_arr{vec} {};",
"",
"    void from_hexstring(const std::string &str) {",
"        if (!str.starts_with(\"0x\")) throw std::invalid_argument(\"string not prepended with 0x\");",
"        if (str.length() % 2 != 0) throw std::invalid_argument(\"string of odd length\");",
"",
"        std::uint8_t buffer = 0;",
"        std::vector<std::uint8_t> hex;",
"        for (int offset = 2; offset < str.length(); offset += 2) {",
"            buffer = (helpers::hextoint(str[offset]) << 4) + helpers::hextoint(str[offset + 1]);",
"            hex.push_back(buffer);",
"        }",
"        m_arr.fill(0);",
"        for (int i = 0; i < hex.size(); ++i)",
"            for (int j = 0; j < constants::BITS_PER_BYTE && constants::BITS_PER_BYTE * i + j < N; ++j)",
"                m_arr[constants::BITS_PER_BYTE * i + j] = ((hex[i] >> j) & 1);",
"    }",
"",
"    std::string to_string() const {",
"        std::stringstream os;",
"        std::ios_base::fmtflags save = std::cout.flags();",
"        auto serial = this->serialize();",
"        os << \"0x\";",
"        for (auto i = serial.cbegin(); i != serial.cend(); ++i)",
"            os << std::setfill('0') << std::setw(2) << std::hex << *i;",
"        std::cout.flags(save);",
"        return os.str();",
"    };",
"",
"    friend std::ostream &operator<<(std::ostream &os, const Bitvector<N> &m_bits) {",
"        for (auto const &b : m_bits.m_arr) os << b;",
"        return os;",
"    };",
"    std::vector<std::uint8_t> serialize() const override {",
"        Bytes<(N + constants::BITS_PER_BYTE - 1) / constants::BITS_PER_BYTE> ret{};",
"        for (int i = 0; i < N; ++i) ret[i / constants::BITS_PER_BYTE] |= m_arr[i] << (i % constants::BITS_PER_BYTE);",
"        return ret;",
"    }",
"    bool deserialize(ssz::SSZIterator it, ssz::SSZIterator end) override {",
"        if (std::distance(it, end) != (N + constants::BITS_PER_BYTE - 1) / constants::BITS_PER_BYTE) return false;",
"        for (auto i = it; i != end; ++i)",
"            for (int j = 0; j < constants::BITS_PER_BYTE && constants::BITS_PER_BYTE * std::distance(it, i) + j < N;",
"                 ++j)",
"                m_arr[constants::BITS_PER_BYTE * std::distance(it, i) + j] = *i & (1 << j);",
"        return true;",
"    }",
"    bool operator==(const Bitvector &) const = default;",
"",
"    YAML::Node encode() const override {",
"        auto str = this->to_string();",
"        return YAML::convert<std::string>::encode(str);",
"    }",
"    bool decode(const YAML::Node &node) override {",
"        std::string str;",
"        if (!YAML::convert<std::string>::decode(node, str)) return false;",
"        this->from_hexstring(str);",
"        return true;",
"    }",
"};",
"}  // namespace eth"]

/-- The lines of ssz/hasher.cpp:1-83. -/
def hasherCpp : List String := [
"/*  hasher.cpp",
" *",
" *  This file is part of Mammon.",
" *  mammon is a greedy and selfish ETH consensus client.",
" *",
" *  Copyright (c) 2021 - Reimundo Heluani (potuz) potuz@potuz.net",
" *",
" *  This program is free software: you can redistribute it and/or modify",
" *  it under the terms of the GNU General Public License as published by",
" *  the Free Software Foundation, either version 3 of the License, or",
" *  (at your option) any later version.",
" *",
" *  This program is distributed in the hope that it will be useful,",
" *  but WITHOUT ANY WARRANTY; without even the implied warranty of",
" *  MERCHANTABILITY or FITNESS FOR A PARTICULAR PURPOSE.  See the",
" *  GNU General Public License for more details.",
" *",
" *  You should have received a copy of the GNU General Public License",
" *  along with this program.  If not, see <http://www.gnu.org/licenses/>.",
" */",
"",
"#include <cpuid.h>",
"",
"#include \"ssz/hasher.hpp\"",
"#include \"ssz/ssz.hpp\"",
"",
"extern \"C\" void sha256_1_avx(unsigned char* output, const unsigned char* input);",
"",
"namespace {",
"constexpr auto CPUID_LEAF = 7;",
"}",
"",
"namespace ssz {",
"void Hasher::sha256_sse(unsigned char* output, const unsigned char* input, std::size_t blocks) {",
"    while (blocks) {",
"        sha256_1_avx(output, input);",
"        input += 2*constants::BYTES_PER_CHUNK;",
"        output += constants::BYTES_PER_CHUNK;",
"        blocks--;",
"    }",
"}",
"",
"const Hasher::IMPL Hasher::implemented() {",
"    IMPL ret = IMPL::NONE; ",
"    std::uint32_t a, b, c, d;  // NOLINT",
"    __get_cpuid_count(CPUID_LEAF, 0, &a, &b, &c, &d);",
"    if (b & bit_SHA) ret = ret | IMPL::SHA;",
"    if (b & bit_AVX2) ret = ret | IMPL::AVX2;",
"",
"    __get_cpuid(1, &a, &b, &c, &d);",
"    if (c & bit_AVX) ret = ret |  IMPL::AVX;",
"    if (c & bit_SSE3) ret = ret | IMPL::SSE;",
"",
"    return ret;",
"}",
"",
"Hasher::SHA256_hasher Hasher::best_sha256_implementation() {",
"    auto impl = implemented(); ",
"    if (!!(impl & IMPL::SHA)) return &::sha256_shani;",
"    if (!!(impl & IMPL::AVX2)) return &::sha256_8_avx2;",
"    if (!!(impl & IMPL::AVX)) return &::sha256_4_avx;",
"    return &sha256_sse;",
"}",
"",
"Hasher::Hasher(Hasher::IMPL impl) {",
"    switch (impl) {",
"        case IMPL::SHA:",
"            _hash_64b_blocks = sha256_shani;",
"            break;",
"        case IMPL::AVX2:",
"            _hash_64b_blocks = sha256_8_avx2;",
"            break;",
"        case IMPL::AVX: ",
"            _hash_64b_blocks = sha256_4_avx;",
"            break;",
"        case IMPL::SSE:",
"            _hash_64b_blocks = &sha256_sse;",
"            break;",
"        default:",
"            _hash_64b_blocks = best_sha256_implementation();",
"    }",
"}",
"}  // namespace ssz"]

/-- The lines of ssz/hashtree.hpp:1-47. -/
def hashtreeHpp : List String := [
"/*  hashtree.hpp",
" *",
" *  This file is part of Mammon.",
" *  mammon is a greedy and selfish ETH consensus client.",
" *",
" *  Copyright (c) 2021 - Reimundo Heluani (potuz) potuz@potuz.net",
" *",
" *  This program is free software: you can redistribute it and/or modify",
" *  it under the terms of the GNU General Public License as published by",
" *  the Free Software Foundation, either version 3 of the License, or",
" *  (at your option) any later version.",
" *",
" *  This program is distributed in the hope that it will be useful,",
" *  but WITHOUT ANY WARRANTY; without even the implied warranty of",
" *  MERCHANTABILITY or FITNESS FOR A PARTICULAR PURPOSE.  See the",
" *  GNU General Public License for more details.",
" *",
" *  You should have received a copy of the GNU General Public License",
" *  along with this program.  If not, see <http://www.gnu.org/licenses/>.",
" */",
"",
"#pragma once",
"",
"#include <array>",
"#include <cstddef>",
"#include <cstring>",
"#include <vector>",
"",
"#include \"ssz/hasher.hpp\"",
"#include \"ssz/ssz.hpp\"",
"",
"namespace ssz {",
"class HashTree {",
"   private:",
"    static const Hasher hasher;",
"    std::vector<Chunk> hash_tree_;",
"",
"   public:",
"    explicit HashTree(const std::vector<Chunk>& chunks, std::uint64_t limit = 0);",
"    explicit HashTree(const std::vector<std::uint8_t>& vec, std::uint64_t limit = 0);",
"",
"    void mix_in(std::size_t length);",
"    std::vector<Chunk> hash_tree() const { return hash_tree_; }",
"    const Chunk hash_tree_root() const { return hash_tree_.back(); }",
"};",
"",
"}  // namespace ssz"]

/-- The lines of ssz/ssz_container.hpp:1-75. -/
def containerHpp : List String := [
"/*  ssz_container.hpp",
" *",
" *  This file is part of Mammon.",
" *  mammon is a greedy and selfish ETH consensus client.",
" *",
" *  Copyright (c) 2021 - Reimundo Heluani (potuz) potuz@potuz.net",
" *",
" *  This program is free software: you can redistribute it and/or modify",
" *  it under the terms of the GNU General Public License as published by",
" *  the Free Software Foundation, either version 3 of the License, or",
" *  (at your option) any later version.",
" *",
" *  This program is distributed in the hope that it will be useful,",
" *  but WITHOUT ANY WARRANTY; without even the implied warranty of",
" *  MERCHANTABILITY or FITNESS FOR A PARTICULAR PURPOSE.  See the",
" *  GNU General Public License for more details.",
" *",
" *  You should have received a copy of the GNU General Public License",
" *  along with this program.  If not, see <http://www.gnu.org/licenses/>.",
" */",
"",
"#pragma once",
"#include <cstddef>",
"#include <string>",
"#include <vector>",
"",
"#include \"ssz/ssz.hpp\"",
"#include \"yaml-cpp/yaml.h\"",
"",
"namespace ssz {",
"class Container;",
"using Part = std::pair<std::string, Container *>;",
"using ConstPart = std::pair<std::string, const Container *>;",
"using SSZIterator = std::vector<std::uint8_t>::const_iterator;",
"",
"class Container {",
"   protected:",
"    static std::vector<std::uint8_t> serialize_(const std::vector<const Container *> &);",
"    static bool deserialize_(SSZIterator it, SSZIterator end, const std::vector<Container *> &);",
"    static YAML::Node encode_(const std::vector<ConstPart> &parts);",
"    static bool decode_(const YAML::Node &node, std::vector<Part> parts);",
"    static std::vector<Chunk> hash_tree_(const std::vector<const Container *> &);",
"    virtual std::vector<Chunk> hash_tree() const;",
"",
"   public:",
"    virtual ~Container() = default;",
"    Container() = default;",
"    Container(Container &&) = default;",
"    Container(const Container &) = default;",
"    Container &operator=(Container &&) = default;",
"    Container &operator=(const Container &) = default;",
"",
"    virtual std::size_t get_ssz_size() const { return 0; }",
"    virtual std::vector<std::uint8_t> serialize() const = 0;",
"    virtual bool deserialize(SSZIterator it, SSZIterator end) = 0;",
"",
"    Chunk hash_tree_root() const { return this->hash_tree().back(); }",
"",
"    virtual YAML::Node encode() const = 0;",
"    virtual bool decode(const YAML::Node &node) = 0;",
"    bool operator==(const Container &) const { return true; }",
"};",
"",
"}  // namespace ssz",
"",
"// clang-format off",
"template <class T>",
"requires std::is_base_of<ssz::Container, T>::value",
"struct YAML::convert<T> {",
"  static YAML::Node encode(const ssz::Container &c) { return c.encode(); }",
"  static bool decode(const YAML::Node &node, ssz::Container &c) {",
"    return c.decode(node);",
"  }",
"};",
"// clang-format on"]

/-- The lines of helpers/bytes_to_int.hpp:1-74. -/
def bytesToInt : List String := [
"/*  bytes_to_int.hpp",
" *",
" *  This file is part of Mammon.",
" *  mammon is a greedy and selfish ETH consensus client.",
" *",
" *  Copyright (c) 2021 - Reimundo Heluani (potuz) potuz@potuz.net",
" *",
" *  This program is free software: you can redistribute it and/or modify",
" *  it under the terms of the GNU General Public License as published by",
" *  the Free Software Foundation, either version 3 of the License, or",
" *  (at your option) any later version.",
" *",
" *  This program is distributed in the hope that it will be useful,",
" *  but WITHOUT ANY WARRANTY; without even the implied warranty of",
" *  MERCHANTABILITY or FITNESS FOR A PARTICULAR PURPOSE.  See the",
" *  GNU General Public License for more details.",
" *",
" *  You should have received a copy of the GNU General Public License",
" *  along with this program.  If not, see <http://www.gnu.org/licenses/>.",
" */",
"",
"#pragma once",
"#include <array>",
"#include <concepts>",
"#include <cstddef>",
"#include <string>",
"",
"namespace {",
"struct Table {",
"    std::array<long long, 128> tab;",
"    constexpr Table() : tab{} {",
"        tab['1'] = 1;",
"        tab['2'] = 2;",
"        tab['3'] = 3;",
"        tab['4'] = 4;",
"        tab['5'] = 5;",
"        tab['6'] = 6;",
"        tab['7'] = 7;",
"        tab['8'] = 8;",
"        tab['9'] = 9;",
"        tab['a'] = 10;",
"        tab['A'] = 10;",
"        tab['b'] = 11;",
"        tab['B'] = 11;",
"        tab['c'] = 12;",
"        tab['C'] = 12;",
"        tab['d'] = 13;",
"        tab['D'] = 13;",
"        tab['e'] = 14;",
"        tab['E'] = 14;",
"        tab['f'] = 15;",
"        tab['F'] = 15;",
"    }",
"    constexpr long long operator[](char const idx) const { return tab[(std::size_t)idx]; }",
"} constexpr table;",
"}  // namespace",
"",
"namespace helpers {",
"",
"// The caller is responsible to check the bounds",
"template <typename T>",
"requires(std::unsigned_integral<T>) T to_integer_little_endian(const std::uint8_t *arr) {",
"    auto ptr = reinterpret_cast<const T *>(arr);",
"    return *ptr;",
"}",
"",
"constexpr int hextoint(char number) { return table[(std::size_t)number]; }",
"",
"constexpr int strhex2int(std::string_view const &str) {",
"    int ret = 0;",
"    for (int i(str.size() - 1), j(1); i >= 0; --i, j *= 16) ret += (hextoint(str[i]) * j);",
"    return ret;",
"}",
"}  // namespace helpers"]

/-- The lines of ssz/hasher.hpp:1-76. -/
def hasherHpp : List String := [
"/*  hasher.hpp",
" *",
" *  This file is part of Mammon.",
" *  mammon is a greedy and selfish ETH consensus client.",
" *",
" *  Copyright (c) 2021 - Reimundo Heluani (potuz) potuz@potuz.net",
" *",
" *  This program is free software: you can redistribute it and/or modify",
" *  it under the terms of the GNU General Public License as published by",
" *  the Free Software Foundation, either version 3 of the License, or",
" *  (at your option) any later version.",
" *",
" *  This program is distributed in the hope that it will be useful,",
" *  but WITHOUT ANY WARRANTY; without even the implied warranty of",
" *  MERCHANTABILITY or FITNESS FOR A PARTICULAR PURPOSE.  See the",
" *  GNU General Public License for more details.",
" *",
" *  You should have received a copy of the GNU General Public License",
" *  along with this program.  If not, see <http://www.gnu.org/licenses/>.",
" */",
"",
"#pragma once",
"",
"#include <bits/c++config.h>",
"#include <cstdint>",
"",
"extern \"C\" void sha256_4_avx(unsigned char* output, const unsigned char* input, std::size_t blocks);",
"extern \"C\" void sha256_8_avx2(unsigned char* output, const unsigned char* input, std::size_t blocks);",
"extern \"C\" void sha256_shani(unsigned char* output, const unsigned char* input, std::size_t blocks);",
"",
"namespace ssz {",
"",
"class Hasher {",
"",
"    public:",
"        enum class IMPL {",
"            NONE = 0,",
"            SSE  = 1,",
"            AVX  = 2,",
"            AVX2 = 4,",
"            SHA  = 8",
"        };",
"",
"        inline friend IMPL operator |(IMPL a, IMPL b) noexcept {",
"            return static_cast<IMPL>(static_cast<int>(a) | static_cast<int>(b));",
"        }",
"",
"        inline friend IMPL operator &(IMPL a, IMPL b) noexcept {",
"            return static_cast<IMPL>(static_cast<int>(a) & static_cast<int>(b));",
"        }",
"",
"        inline friend bool operator !(IMPL a) noexcept { return a == IMPL::NONE; };",
"",
"        Hasher() : _hash_64b_blocks { best_sha256_implementation() } {};",
"        Hasher(IMPL impl);",
"        ",
"        inline constexpr void hash_64b_blocks(unsigned char* output, const unsigned char* input, std::size_t blocks) const {",
"            _hash_64b_blocks(output, input, blocks);",
"        }",
"        ",
"        static const IMPL implemented(); ",
"        ",
"",
"",
"    private:",
"        typedef void (*SHA256_hasher)(unsigned char*, const unsigned char*, std::size_t);",
"        SHA256_hasher _hash_64b_blocks;",
"        ",
"        static SHA256_hasher best_sha256_implementation();",
"        static constexpr auto sha256_4_avx = ::sha256_4_avx;",
"        static constexpr auto sha256_8_avx2 = ::sha256_8_avx2;",
"        static constexpr auto sha256_shani = ::sha256_shani;",
"        static void sha256_sse(unsigned char* output, const unsigned char* input, std::size_t blocks);",
"};",
"",
"}  // namespace ssz"]

end Mammon.Cpp.Text
